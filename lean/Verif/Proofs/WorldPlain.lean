import Verif.Proofs.WorldBoxes

/-! Worlds without sub-stepping and without moving static bodies. -/
namespace B2
set_option linter.unusedSectionVars false
open World Spec

section
variable {F : Type} [Field F] [LinearOrder F] [IsStrictOrderedRing F] [Elem F]
variable {env : Env F} {b : Nat}

theorem Spec.PlainHist.hist {w : World F} (h : PlainHist env w) : WHist env w := by
  induction h with
  | new => exact .new _ _ _ _ _ _
  | call c _ ok _ _ e ih => exact .call c ih ok e

theorem call_complete {w w' : World F} (c : Call F) (hs : ∀ dt vi pi, c ≠ .step dt vi pi) (e : c.run env w = some w') : w'.stepComplete = w.stepComplete := by
  cases c with
  | createBody d =>
    simp only [Call.run, Option.map_eq_some_iff] at e
    obtain ⟨⟨v, b⟩, e, rfl⟩ := e
    unfold createBody at e
    split at e
    · cases e
    simp only [Option.bind_eq_bind, Option.bind_eq_some_iff] at e
    obtain ⟨p, e1, e2⟩ := e
    cases e2
    rfl
  | destroyBody b => exact (destroyBody_held e).complete
  | createFixture b d =>
    simp only [Call.run, Option.map_eq_some_iff] at e
    obtain ⟨⟨v, f⟩, e, rfl⟩ := e
    exact (createFixture_held e).complete
  | destroyFixture b f => exact (destroyFixture_held e).complete
  | createJoint d =>
    simp only [Call.run, Option.map_eq_some_iff] at e
    obtain ⟨⟨v, j⟩, e, rfl⟩ := e
    unfold createJoint at e
    split at e
    · cases e
    split at e
    · cases e
    dsimp only at e
    cases e
    split
    · exact (flagContacts_held _ _ _).complete
    · rfl
  | destroyJoint j => exact (destroyJoint_held e).complete
  | setType b t => exact (setType_held e).complete
  | setEnabled b flag => exact (setEnabled_held e).complete
  | setTransform b p a =>
    simp only [Call.run] at e
    unfold setTransform at e
    split at e
    · cases e
    simp only [Option.bind_eq_bind, Option.bind_eq_some_iff] at e
    obtain ⟨w1, e1, e2⟩ := e
    cases e2
    exact (Held.foldlM e1 (fun _ _ _ _ h => synchronize_held h)).complete
  | setMassData b m =>
    obtain ⟨-, q, -⟩ := setMassData_spec (env := env) e
    exact (Held.quiet q).complete
  | setFilterData f d => exact (refilter_held (w := w.setFattr f { w.fattr f with filter := d }) e).complete
  | refilter f => exact (refilter_held e).complete
  | user op => exact (Held.quiet (userOp_quiet e).1).complete
  | setAllowSleeping flag =>
    cases e
    unfold setAllowSleeping
    split
    · rfl
    dsimp only
    split
    · exact (Held.foldl (w := ({ w with allowSleep := flag } : World F)) (fun b _ v => setAwake_held v b true)).complete
    · rfl
  | clearForces => cases e; exact (Held.quiet (clearForcesAll_quiet w).1).complete
  | shiftOrigin o =>
    simp only [Call.run] at e
    unfold shiftOrigin at e
    split at e
    · cases e
    dsimp only at e
    cases e
    exact (Held.foldl (w := w) (fun b _ v => Held.setPhys (by rfl) (by rfl))).complete
  | step dt vi pi => exact absurd rfl (hs dt vi pi)
  | _ => cases e; rfl

theorem toiLoop_complete {step : TimeStep F} : ∀ (n : Nat) {w w' : World F}, WInv w → w.subStepping = false → toiLoop env step n w = some w' → w'.stepComplete = true := by
  intro n
  induction n with
  | zero => intro w w' _ _ e; cases e
  | succ n ih =>
    intro w w' h hs e
    unfold toiLoop at e
    simp only [Option.bind_eq_bind, Option.bind_eq_some_iff] at e
    obtain ⟨⟨w1, best, m⟩, e1, e⟩ := e
    obtain ⟨m1, hb⟩ := toiScan_mild _ e1
    have hw1 : WInv w1 := h.frame m1.g m1.bp
    dsimp only at e
    cases best with
    | none => cases e; rfl
    | some c =>
      dsimp only at e
      split at e
      · cases e; rfl
      simp only [Option.bind_eq_some_iff] at e
      obtain ⟨⟨w2, solid⟩, e2, e3⟩ := e
      have hc : c ∈ w1.g.contactList := by
        rcases hb c rfl with h | ⟨h, -⟩
        · cases h
        · rw [m1.g]; exact h
      have g2 := (toiEvent_good hw1 hc e2).1
      have hs2 : w2.subStepping = false := by rw [g2.rest.subStepping, m1.subStepping]; exact hs
      dsimp only at e3
      rw [if_neg (by rw [hs2]; simp)] at e3
      exact ih g2.winv hs2 e3

theorem step_complete {w w' : World F} {dt : F} {vi pi : Nat} (h : WInv w) (hs : w.subStepping = false) (hc : w.stepComplete = true) (e : w.step env dt vi pi = some w') :
    w'.stepComplete = true := by
  unfold step at e
  simp only [Option.bind_eq_bind, Option.bind_eq_some_iff] at e
  obtain ⟨w1, e1, w2, e2, e3⟩ := e
  unfold stepLocked at e2
  simp only [Option.bind_eq_bind, Option.bind_eq_some_iff] at e2
  obtain ⟨w3, e4, w4, e5, w5, e6, e7⟩ := e2
  obtain ⟨v, g1, rfl, -⟩ := stepBegin_good h e1
  have hw1 : WInv { v with newContacts := false, locked := true } := g1.winv.frame rfl rfl
  obtain ⟨g3, -⟩ := collide_good hw1 e4
  have h3 : w3.subStepping = false ∧ w3.stepComplete = true :=
    ⟨(g3.rest.subStepping.trans g1.rest.subStepping).trans hs, (g3.rest.stepComplete.trans g1.rest.stepComplete).trans hc⟩
  have h4 : w4.subStepping = false ∧ w4.stepComplete = true ∧ WInv w4 := by
    split at e5
    · have g4 := solve_good g3.winv e5
      exact ⟨g4.rest.subStepping.trans h3.1, g4.rest.stepComplete.trans h3.2, g4.winv⟩
    · cases e5; exact ⟨h3.1, h3.2, g3.winv⟩
  have h5 : w5.stepComplete = true := by
    split at e6
    · unfold solveToi at e6
      refine toiLoop_complete _ (h4.2.2.frame (toiReset_soft w4).g (toiReset_soft w4).bp) ?_ e6
      rw [(toiReset_soft w4).subStepping]; exact h4.1
    · cases e6; exact h4.2.1
  cases e3
  cases e7
  generalize (World.timeStep { { v with newContacts := false } with locked := true } dt vi pi) = ts
  have h6 : (if ts.dt > 0 then { w5 with invDt0 := ts.invDt } else w5).stepComplete = true := by split <;> exact h5
  generalize (if ts.dt > 0 then { w5 with invDt0 := ts.invDt } else w5) = w6 at h6
  dsimp only
  split
  · exact (clearForcesAll_quiet w6).1.stepComplete.trans h6
  · exact h6

theorem Spec.PlainHist.complete {w : World F} (h : PlainHist env w) : w.stepComplete = true := by
  induction h with
  | new => rfl
  | @call w w' c hw ok hsub _ e ih =>
    by_cases hs : ∃ dt vi pi, c = .step dt vi pi
    · obtain ⟨dt, vi, pi, rfl⟩ := hs
      exact step_complete (whist_inv hw.hist).toWInv (hsub _ _ _ rfl) ih e
    · rw [call_complete c (fun dt vi pi hc => hs ⟨dt, vi, pi, hc⟩) e]; exact ih

/-- Static and kinematic bodies through a step. `S` are bodies that need no solution: static ones and sleeping ones at rest. -/
theorem heavy_step {w w' : World F} {dt : F} {vi pi : Nat} {S : Prop} (hE : LeavesBodies env) (hP : PostSolveLinks env) (hT : ToiForward env) (hH : HeavyStay env)
    (hw : WInv w) (hc : w.stepComplete = true) (hb : b ∈ w.g.bodyList) (hcon : Consistent (w.typeOf b) (w.phys b)) (hty : w.typeOf b ≠ .dynamic)
    (hTS : w.typeOf b = .static → S)
    (hst : S → (w.phys b).v = ⟨0, 0⟩ ∧ (w.phys b).w = 0 ∧ (w.phys b).sweep.c0 = (w.phys b).sweep.c ∧ (w.phys b).sweep.a0 = (w.phys b).sweep.a)
    (hkin : ¬ S → (w.phys b).awake = true ∧ (w.g.bodies b).enabled = true)
    (hslow : 0 < dt → Slow dt (w.phys b).v (w.phys b).w)
    (hr : 0 < dt → w.allowSleep = true → restless (w.phys b) = true ∨ ((w.phys b).v = ⟨0, 0⟩ ∧ (w.phys b).w = 0))
    (e : w.step env dt vi pi = some w') :
    (Consistent (w'.typeOf b) (w'.phys b) ∧ w'.typeOf b = w.typeOf b ∧ (w'.phys b).v = (w.phys b).v ∧ (w'.phys b).w = (w.phys b).w ∧ (w'.phys b).sweep.localCenter = (w.phys b).sweep.localCenter ∧
      (w'.phys b).sweep.c = (w.phys b).sweep.c + max dt 0 * (w.phys b).v ∧ (w'.phys b).sweep.a = (w.phys b).sweep.a + max dt 0 * (w.phys b).w) ∧
      (S ∨ 0 < dt → (w.phys b).v = ⟨0, 0⟩ → (w.phys b).w = 0 → (w'.phys b).sweep.c0 = (w'.phys b).sweep.c ∧ (w'.phys b).sweep.a0 = (w'.phys b).sweep.a) ∧
      (¬ ((w.phys b).v = ⟨0, 0⟩ ∧ (w.phys b).w = 0) → (w'.phys b).awake = true) ∧
      (¬ 0 < dt → (w.phys b).awake = true → (w'.phys b).awake = true) ∧
      (Covered w b → Covered w' b) := by
  have hcon' : Consistent (w'.typeOf b) (w'.phys b) := step_keep consistent_stable hw e b hcon
  have hheavy := hcon.heavy hty
  have hposed : Posed (w.phys b) := posed_iff.mpr ⟨hcon.rotation, hcon.center⟩
  have hwake : ¬ ((w.phys b).v = ⟨0, 0⟩ ∧ (w.phys b).w = 0) → (w.phys b).awake = true := fun h => (hkin (fun s => h ⟨(hst s).1, (hst s).2.1⟩)).1
  have h0 : HeavyAs (w.typeOf b) (w.phys b) (w.typeOf b) (w.phys b) := ⟨rfl, hheavy.2.1, hheavy.2.2.2, rfl, rfl, rfl, rfl, hposed, hwake⟩
  have fin : ∀ {u : World F}, Ended b u w' → ∀ {h : F}, h = max dt 0 → HeavyAs (w.typeOf b) (w.phys b) (u.typeOf b) (u.phys b) → (u.phys b).sweep.c = (w.phys b).sweep.c + h * (w.phys b).v →
      (u.phys b).sweep.a = (w.phys b).sweep.a + h * (w.phys b).w →
      (S ∨ 0 < dt → (w.phys b).v = ⟨0, 0⟩ → (w.phys b).w = 0 → (u.phys b).sweep.c0 = (u.phys b).sweep.c ∧ (u.phys b).sweep.a0 = (u.phys b).sweep.a) →
      (¬ 0 < dt → (w.phys b).awake = true → (u.phys b).awake = true) → (Covered w b → Covered u b) →
      (Consistent (w'.typeOf b) (w'.phys b) ∧ w'.typeOf b = w.typeOf b ∧ (w'.phys b).v = (w.phys b).v ∧ (w'.phys b).w = (w.phys b).w ∧ (w'.phys b).sweep.localCenter = (w.phys b).sweep.localCenter ∧
      (w'.phys b).sweep.c = (w.phys b).sweep.c + max dt 0 * (w.phys b).v ∧ (w'.phys b).sweep.a = (w.phys b).sweep.a + max dt 0 * (w.phys b).w) ∧
      (S ∨ 0 < dt → (w.phys b).v = ⟨0, 0⟩ → (w.phys b).w = 0 → (w'.phys b).sweep.c0 = (w'.phys b).sweep.c ∧ (w'.phys b).sweep.a0 = (w'.phys b).sweep.a) ∧
      (¬ ((w.phys b).v = ⟨0, 0⟩ ∧ (w.phys b).w = 0) → (w'.phys b).awake = true) ∧
      (¬ 0 < dt → (w.phys b).awake = true → (w'.phys b).awake = true) ∧
      (Covered w b → Covered w' b) := by
    intro u hu h hh k1 k2 k3 k4 k5 k6
    refine ⟨⟨hcon', ?_⟩, ?_⟩
    all_goals
      clear hcon'
      have hsw : (w'.phys b).sweep = (u.phys b).sweep ∧ (w'.phys b).v = (u.phys b).v ∧ (w'.phys b).w = (u.phys b).w ∧ (w'.phys b).xf = (u.phys b).xf ∧ (w'.phys b).awake = (u.phys b).awake := by
        rcases hu.phys with h | h <;> rw [h] <;> exact ⟨rfl, rfl, rfl, rfl, rfl⟩
      have htt : w'.typeOf b = u.typeOf b := by unfold World.typeOf; rw [hu.g]
    · rw [hsw.1, hsw.2.1, hsw.2.2.1, htt, ← hh]
      exact ⟨k1.type, k1.v, k1.w, k1.center, k2, k3⟩
    · rw [hsw.1, hsw.2.2.2.2]
      refine ⟨k4, k1.wake, k5, fun hcov => ?_⟩
      rw [covered_iff, hsw.2.2.2.1]
      exact CoveredBy.boxes (k6 hcov) (.same hu.g hu.bp)
  by_cases hpos : 0 < dt
  · have hX : ∀ p : Phys F, Posed p → p.sweep.localCenter = (w.phys b).sweep.localCenter → p.sweep.c = (w.phys b).sweep.c + dt * (w.phys b).v → p.sweep.a = (w.phys b).sweep.a + dt * (w.phys b).w →
        p.xf = (Phys.synchronizeTransform { w.phys b with sweep := { (w.phys b).sweep with c := (w.phys b).sweep.c + dt * (w.phys b).v, a := (w.phys b).sweep.a + dt * (w.phys b).w } }).xf := by
      intro p h1 h2 h3 h4
      unfold Posed at h1
      rw [h1, h2, h3, h4]
      rfl
    obtain ⟨u, -, hu, hd, -⟩ := step_track (b := b) hE hP hT hw hc hb
      (P0 := fun v => (At b (Heavy0 (w.typeOf b) S (w.phys b)) v ∧ (¬ S → (v.phys b).awake = true)) ∧ (Covered w b → S → CoveredBy b _ v))
      (fun hpos g _ hl => (heavy_solves (dt := dt) hH (hslow hpos) rfl hty hTS (fun h => ⟨(hst h).1, (hst h).2.1⟩)
        (fun h => by rw [hl.body]; exact (hkin h).2) (hr hpos)).boxed (S := S) (K := Covered w b) (fun v hv => hX _ hv.posed hv.center hv.c hv.a)
        (fun v hv hg hi => by
          by_contra hn
          rcases hi with hi | hi | hi
          · rw [hv.2 hn] at hi; cases hi
          · rw [hg, hl.body] at hi
            rw [(hkin hn).2] at hi; cases hi
          · exact hn (hTS (by rw [← hv.1.type]; exact hi))))
      (fun hpos => (heavy_follows hH (hslow hpos) hty).boxed (fun v hv => by rw [hv.type]; exact hty))
      (fun v hv => by
        refine ⟨⟨?_, fun h => hv.awake (hkin h).1⟩, fun hcov s => ?_⟩
        · unfold At
          rw [hv.type]
          exact Heavy0.core ⟨h0, rfl, rfl, fun h => ⟨(hst h).2.2.1, (hst h).2.2.2⟩⟩ hv.core hv.awake
        · obtain ⟨z1, z2, -, -⟩ := hst s
          have := hX (w.phys b) hposed rfl (by rw [z1]; simp [Vec2.ext_iff]) (by rw [z2]; simp)
          rw [← this]
          exact CoveredBy.boxes hcov hv.toSameBoxes)
      (fun v u hv hs _ hp => by
        obtain ⟨hv, hcb⟩ := hv
        refine ⟨?_, fun k => (hcb k).boxes hs⟩
        unfold At
        rw [hs.type, hp]
        refine ⟨⟨hv.type, hv.invMass, hv.invI, hv.v, hv.w, hv.auto, hv.center, hv.posed, hv.wake⟩, hv.c, hv.a, ?_, ?_⟩
        · show (v.phys b).sweep.c0 + ((1 - 0) * dt) * (w.phys b).v = _
          rw [hv.c0, sub_zero, one_mul]
        · show (v.phys b).sweep.a0 + ((1 - 0) * dt) * (w.phys b).w = _
          rw [hv.a0, sub_zero, one_mul]) e
    rcases hd hpos with ⟨hf, hcb⟩ | ⟨⟨hf, hcb⟩, -⟩
    · refine fin hu (max_eq_left hpos.le).symm hf.toHeavyAs hf.c hf.a (fun _ z1 z2 => ?_) (fun h => absurd hpos h) (fun hcov => ?_)
      · have e1 := hf.c0
        have e2 := hf.a0
        rw [← hf.c, z1] at e1
        rw [← hf.a, z2] at e2
        refine ⟨?_, ?_⟩
        · rw [← e1]; simp [Vec2.ext_iff]
        · rw [← e2]; simp
      · rw [covered_iff, hX _ hf.posed hf.center hf.c hf.a]; exact hcb hcov
    · refine fin hu (max_eq_left hpos.le).symm hf.toHeavyAs hf.c hf.a (fun _ z1 z2 => ?_) (fun h => absurd hpos h) (fun hcov => ?_)
      · rw [hf.c0, hf.a0, hf.c, hf.a, z1, z2]
        simp [Vec2.ext_iff]
      · rw [covered_iff, hX _ hf.posed hf.center hf.c hf.a]; exact hcb hcov
  · obtain ⟨u, -, hu, -, hd⟩ := step_track (b := b) (P0 := fun _ => True) (P1 := fun _ => True) (P2 := fun _ => True) (Full := fun _ => True) (Half := fun _ _ => True) (Done := fun _ => True) hE hP hT hw hc hb
      (fun h => absurd h hpos) (fun h => absurd h hpos) (fun _ _ => trivial) (fun _ _ _ _ _ _ => trivial) e
    have hd := hd hpos
    have hA : HeavyAs (w.typeOf b) (w.phys b) (u.typeOf b) (u.phys b) := by rw [hd.type]; exact h0.core hd.core hd.awake
    refine fin hu (max_eq_right (not_lt.mp hpos)).symm hA ?_ ?_ ?_ (fun _ => hd.awake) ?_
    · rw [core_eq hd.core]; simp [Vec2.ext_iff]
    · rw [core_eq hd.core]; simp
    · intro hs _ _
      rw [core_eq hd.core]
      exact (hst (hs.resolve_right hpos)).2.2
    · intro hcov
      have hx : (u.phys b).xf = (w.phys b).xf := by rw [core_eq hd.core]
      rw [covered_iff, hx]; exact CoveredBy.boxes hcov hd.toSameBoxes

theorem slow_zero (dt : F) : Slow dt ⟨0, 0⟩ 0 := by
  refine ⟨?_, ?_⟩
  · simp only [dot, Vec2.smul_x, Vec2.smul_y, mul_zero, add_zero]; exact mul_self_nonneg _
  · simp only [mul_zero]; exact mul_self_nonneg _

/-- A body at rest that is static or asleep stays. -/
theorem rest_step {w w' : World F} {dt : F} {vi pi : Nat} (hE : LeavesBodies env) (hP : PostSolveLinks env) (hT : ToiForward env) (hH : HeavyStay env)
    (hw : WInv w) (hc : w.stepComplete = true) (hb : b ∈ w.g.bodyList) (hcon : Consistent (w.typeOf b) (w.phys b)) (hty : w.typeOf b ≠ .dynamic)
    (hst : (w.phys b).v = ⟨0, 0⟩ ∧ (w.phys b).w = 0 ∧ (w.phys b).sweep.c0 = (w.phys b).sweep.c ∧ (w.phys b).sweep.a0 = (w.phys b).sweep.a)
    (e : w.step env dt vi pi = some w') :
    (Consistent (w'.typeOf b) (w'.phys b) ∧ w'.typeOf b = w.typeOf b ∧ (w'.phys b).v = (w.phys b).v ∧ (w'.phys b).w = (w.phys b).w ∧ (w'.phys b).sweep.localCenter = (w.phys b).sweep.localCenter ∧
      (w'.phys b).sweep.c = (w.phys b).sweep.c ∧ (w'.phys b).sweep.a = (w.phys b).sweep.a) ∧
      ((w'.phys b).sweep.c0 = (w'.phys b).sweep.c ∧ (w'.phys b).sweep.a0 = (w'.phys b).sweep.a) ∧ (Covered w b → Covered w' b) := by
  obtain ⟨⟨k0, k1, k2, k3, k4, k5, k6⟩, k7, -, -, k8⟩ := heavy_step (S := True) hE hP hT hH hw hc hb hcon hty (fun _ => trivial) (fun _ => hst) (fun h => absurd trivial h)
    (fun _ => by rw [hst.1, hst.2.1]; exact slow_zero dt) (fun _ _ => .inr ⟨hst.1, hst.2.1⟩) e
  refine ⟨⟨k0, k1, k2, k3, k4, ?_, ?_⟩, k7 (.inl trivial) hst.1 hst.2.1, k8⟩
  · rw [k5, hst.1]; simp [Vec2.ext_iff]
  · rw [k6, hst.2.1]; simp

/-! ### Static bodies -/

/-- A static body is at rest. -/
def Rests (t : BodyType) (p : Phys F) : Prop := t = .static → p.v = ⟨0, 0⟩ ∧ p.w = 0 ∧ p.sweep.c0 = p.sweep.c ∧ p.sweep.a0 = p.sweep.a

/-- Not given a velocity if static. -/
def DefRests (d : BodyDef F) : Prop := d.type = .static → d.linearVelocity = ⟨0, 0⟩ ∧ d.angularVelocity = 0

theorem resetMassData_rests {t : BodyType} {fs : List (F × Shape F)} {p p' : Phys F} (e : Phys.resetMassData t fs p = some p') (h : t = .static → p.v = ⟨0, 0⟩ ∧ p.w = 0 ∧ p.sweep.a0 = p.sweep.a) : Rests t p' := by
  rintro rfl
  unfold Phys.resetMassData at e
  dsimp only at e
  rw [if_pos (Or.inl rfl)] at e
  cases e
  obtain ⟨h1, h2, h4⟩ := h rfl
  exact ⟨h1, h2, rfl, rfl⟩

theorem rests_stable : Stable0 env (DefRests (F := F)) (fun _ _ => True) Rests where
  new d p hN e := by
    intro ht
    unfold Phys.new at e
    split at e
    · cases e
      exact ⟨(hN ht).1, (hN ht).2, rfl, rfl⟩
    · cases e
  awake _ := trivial
  reset _ := trivial
  obeys _ _ _ _ _ _ _ _ := trivial
  run t fs p p' op _ e h := by
    rintro rfl
    obtain ⟨h1, h2, h3, h4⟩ := h rfl
    cases op <;> simp only [BodyOp.run, Option.some.injEq] at e
    case setFixedRotation flag =>
      unfold Phys.setFixedRotation at e
      split at e
      · cases e; exact ⟨h1, h2, h3, h4⟩
      · exact resetMassData_rests e (fun _ => ⟨h1, rfl, h4⟩) rfl
    case resetMassData => exact resetMassData_rests e (fun _ => ⟨h1, h2, h4⟩) rfl
    all_goals subst e
    case setAwake => unfold Phys.setAwake; rw [if_pos rfl]; exact ⟨h1, h2, h3, h4⟩
    case setLinearVelocity => unfold Phys.setLinearVelocity; rw [if_pos rfl]; exact ⟨h1, h2, h3, h4⟩
    case setAngularVelocity => unfold Phys.setAngularVelocity; rw [if_pos rfl]; exact ⟨h1, h2, h3, h4⟩
    case setSleepingAllowed flag =>
      unfold Phys.setSleepingAllowed
      dsimp only
      split
      · exact ⟨h1, h2, h3, h4⟩
      · unfold Phys.setAwake; rw [if_pos rfl]; exact ⟨h1, h2, h3, h4⟩
    all_goals first
      | exact ⟨h1, h2, h3, h4⟩
      | (simp only [Phys.applyForce, Phys.applyForceToCenter, Phys.applyTorque, Phys.applyLinearImpulse, Phys.applyLinearImpulseToCenter, Phys.applyAngularImpulse,
          Phys.applyGate]
         exact ⟨h1, h2, h3, h4⟩)
  retype t t' fs p p' e h := by
    rintro rfl
    unfold Phys.settle
    rw [if_pos rfl]
    exact ⟨rfl, rfl, rfl, rfl⟩
  data t m p p' e h := by
    rintro rfl
    unfold Phys.setMassData at e
    rw [if_pos (by simp)] at e
    cases e
    exact h rfl
  place t p pos angle h := fun ht => ⟨(h ht).1, (h ht).2.1, rfl, rfl⟩
  clear t p h := h
  shift t p o h := fun ht => by
    obtain ⟨h1, h2, h3, h4⟩ := h ht
    exact ⟨h1, h2, by dsimp only; rw [h3], h4⟩

theorem Spec.PlainHist.rests {w : World F} (hE : LeavesBodies env) (hP : PostSolveLinks env) (hT : ToiForward env) (hH : HeavyStay env) (h : PlainHist env w) :
    ∀ b ∈ w.g.bodyList, Rests (w.typeOf b) (w.phys b) := by
  induction h with
  | new => intro b hb; cases hb
  | @call w w' c hw ok hsub hN e ih =>
    have hi := (whist_inv hw.hist).toWInv
    by_cases hs : ∃ dt vi pi, c = .step dt vi pi
    · obtain ⟨dt, vi, pi, rfl⟩ := hs
      intro b hb
      have hb' : b ∈ w.g.bodyList := by rw [(step_good hi e).eq] at hb; exact hb
      have hty : w'.typeOf b = w.typeOf b := by unfold World.typeOf; rw [(step_good hi e).body]
      intro ht
      rw [hty] at ht
      obtain ⟨z1, z2, z3, z4⟩ := ih b hb' ht
      obtain ⟨⟨-, -, k1, k2, -, -, -⟩, k3, -⟩ := rest_step hE hP hT hH hi hw.complete hb' (whist_stable consistent_stable hw.hist b hb') (by rw [ht]; decide) ⟨z1, z2, z3, z4⟩ e
      exact ⟨k1.trans z1, k2.trans z2, k3⟩
    · exact call_stable rests_stable c (fun d hd => hN d hd) (fun _ _ _ => trivial) (fun dt vi pi hc => hs ⟨dt, vi, pi, hc⟩) e ih

end
end B2
