import Verif.Proofs.WorldStepTrack
import Verif.Proofs.WorldPlain

/-! A body that is asleep before and after a step has not moved: it is not in an island, for the islands wake their bodies and put none to sleep that has just
been woken. -/
namespace B2
set_option linter.unusedSectionVars false
open World Spec

section
variable {F : Type} [Field F] [LinearOrder F] [IsStrictOrderedRing F] [Elem F] {env : Env F} {b : Nat} {step : TimeStep F}

/-- The timer of a sleeping body is at zero. -/
def Fresh (t : BodyType) (p : Phys F) : Prop := t ≠ .static → p.awake = false → p.sleepTime = 0

theorem Tm.fresh {t : BodyType} {p q : Phys F} (h : Tm t p q) (hp : Fresh t p) : Fresh t q := by
  intro ht hq
  rcases h.2 with h | ⟨h1, h2⟩
  · rw [hq] at h; cases h
  · rw [h2]; exact hp ht (h1 ▸ hq)

theorem timed_awake (w : World F) (h : F) (y : Nat) : (timed w h y).awake = (w.phys y).awake := by
  unfold timed
  split <;> rfl

theorem sleepIsland_fresh {w : World F} {h : F} {l : List Nat} {solved : Bool} (hn : l.Nodup) (hA : AwakeIn w l) (hb : Fresh (w.typeOf b) (w.phys b)) :
    Fresh (w.typeOf b) ((w.sleepIsland h l solved).phys b) := by
  obtain ⟨k1, k2, k3⟩ := sleepIsland_spec (w := w) (h := h) (l := l) (solved := solved) hn
  intro hs ha
  by_cases hm : b ∈ l
  · by_cases hall : (∀ b ∈ l, w.typeOf b ≠ .static → restless (w.phys b) = false ∧ timeToSleep ≤ (w.phys b).sleepTime + h) ∧ solved = true
    · rw [k2 hall b hm]
      unfold Phys.setAwake
      rw [if_neg hs]
      rfl
    · rw [k3 hall b hm, timed_awake, hA b hm hs] at ha
      cases ha
  · rw [k1 b hm] at ha ⊢
    exact hb hs ha

/-- The body will not have been quiet for long after a time of `dt`. -/
structure Soon (s dt : F) (p : Phys F) : Prop where
  pos : 0 ≤ s
  timer : p.sleepTime ≤ s
  forward : 0 ≤ dt
  early : s + dt < 1 / 2

theorem Soon.later {s dt : F} {t : BodyType} {p q : Phys F} (h : Soon s dt p) (ht : Tm t p q) : Soon s dt q :=
  ⟨h.pos, ht.1.elim (fun e => e.trans_le h.timer) (fun e => e.trans_le h.pos), h.forward, h.early⟩

/-- What holds of body `b`, which is not static, between two seeds. -/
structure DS (b : Nat) (dt : F) (w0 w : World F) : Prop where
  fresh : Fresh (w0.typeOf b) (w0.phys b) → Fresh (w0.typeOf b) (w.phys b)
  before : (w.phys b).island = false → Tm (w0.typeOf b) (w0.phys b) (w.phys b) ∧ (w.phys b).core = (w0.phys b).core
  after : (w.phys b).island = true → ∀ s, Soon s dt (w0.phys b) → (w.phys b).awake = true ∧ (w.phys b).sleepTime ≤ s + dt

theorem idle_solves {g : Graph F} {G : Vec2 F} : Solves env step g G True b (fun _ => True) (fun _ => True) (fun _ => True) where
  p0 _ _ := trivial
  p1 _ _ := trivial
  p2 _ _ := trivial
  move _ _ _ _ _ _ _ _ _ _ _ _ := trivial
  sleep _ _ _ _ := trivial
  again _ _ := trivial
  sync _ _ _ _ := trivial
  idle _ _ _ := trivial

theorem seeds_doze (hE : LeavesBodies env) (hP : PostSolveLinks env) {w0 w1 : World F} (hi : GInv w1.g) (hn : (w1.g.bodies b).type ≠ .static) (ht : w0.typeOf b = (w1.g.bodies b).type) (l : List Nat) :
    (∀ y ∈ l, y ∈ w1.g.bodyList) → ∀ {w w' : World F} {isls isls' : List Island}, GI w1 w isls → CI w1 w isls → DS b step.dt w0 w →
      l.foldlM (solveSeed env step) (w, isls) = some (w', isls') → DS b step.dt w0 w' := by
  induction l with
  | nil => intro _ w w' isls isls' _ _ hS e; cases e; exact hS
  | cons a l ih =>
    intro hl w w' isls isls' hG hC hS e
    have ha : a ∈ w1.g.bodyList := hl a (by simp)
    rw [List.foldlM_cons] at e
    rcases solveSeed_spec (env := env) (step := step) (isls := isls) (by rw [hG.g]; exact hi) hG.ends (show a ∈ w.g.bodyList by rw [hG.g]; exact ha) with ⟨p, q⟩ | ⟨p, s, s1, a2, a3, a4, a5, q⟩
    · rw [q] at e
      exact ih (fun y hy => hl y (by simp [hy])) hG hC hS e
    · rw [q] at e
      cases e1 : s.w.islandSolve env s.w.g.bodyCount s.island step with
      | none => rw [e1] at e; cases e
      | some v =>
        rw [e1] at e
        have g' := hG.seed a2 a3 e1
        have hfl : ∀ y, (s.w.phys y).island = true ↔ (w.phys y).island = true ∨ y ∈ s.island.bodies := by
          intro y; have := a2.flag y; rw [a3, List.append_nil] at this; exact this
        have hnd : s.island.bodies.Nodup := by have := a2.nodup; rw [a3, List.append_nil] at this; exact this
        have sp0 : Spares b w s.w := buildIsland_spares s1
        have s2 := s1
        unfold buildIsland at s2
        have tm0 : Each Tm w s.w := timer_wakes.tr (tmSet (by rfl) (by rfl)) (search_timer s2)
        have aw0 : AwakeIn s.w s.island.bodies := search_awake s2 (fun y hy => by cases hy)
        have fr0 : WFrame w s.w := (setPhys_mild (w := w) (b := a) (p := { w.phys a with island := true }) (by intro _; rfl)).toWFrame.trans (search_mild s2).toWFrame
        have hsg : s.w.g = w1.g := by rw [fr0.g]; exact hG.g
        obtain ⟨k1, -⟩ := islandSolve_track (b := b) (idle_solves (G := s.w.gravity)) hE hsg rfl (fun _ => trivial) (CI.fitted hi hG hC a2 a3) hnd
          (fun c hc => (CI.onlyC' hi hG hC a2 a3 c hc).1.mem)
          (fun j hj => by
            obtain ⟨-, x, -, -, y, t⟩ := a2.jfresh j hj
            rw [← hG.g]; exact t.mem) (fun y hy => by
              rw [← hG.g]; exact (a2.fresh y (List.mem_append.mpr (.inl hy))).2.2.1) e1
        have cm := islandSolve_calm0 e1
        have ml := (islandSolve_mild e1).toWFrame
        obtain ⟨r1, r2, r3, r4⟩ := releaseStatics_spec s.island.bodies v
        have rs := releaseStatics_spares (b := b) v s.island.bodies
        have rt := releaseStatics_timer v s.island.bodies
        have hvg : v.g = w1.g := by rw [ml.g]; exact hsg
        have tv : v.typeOf b = w0.typeOf b := by rw [ht]; show (v.g.bodies b).type = _; rw [hvg]
        have tw : w.typeOf b = w0.typeOf b := by rw [ht]; show (w.g.bodies b).type = _; rw [hG.g]
        have ts : s.w.typeOf b = w0.typeOf b := by rw [ht]; show (s.w.g.bodies b).type = _; rw [hsg]
        have hfin : ((v.releaseStatics s.island.bodies).phys b).island = (v.phys b).island := by
          rw [Bool.eq_iff_iff, r4 b]
          refine ⟨fun h => h.1, fun h => ⟨h, fun h' => ?_⟩⟩
          rw [hvg] at h'
          exact hn h'.2
        obtain ⟨v1, r, m1, hv⟩ := islandSolve_inv e1
        have tm1 := islandMove_timer hE m1
        have aw1 := aw0.later tm1
        have tv1 : v1.typeOf b = w0.typeOf b := ((tm1 b).1).trans ts
        have step1 : Tm (w0.typeOf b) (w.phys b) (v1.phys b) := by
          have h1 := (tm0 b).2
          have h2 := (tm1 b).2
          rw [tw] at h1
          rw [ts] at h2
          exact timer_wakes.trans h1 h2
        have rtb : Tm (w0.typeOf b) (v.phys b) ((v.releaseStatics s.island.bodies).phys b) := by rw [← tv]; exact (rt b).2
        refine ih (fun y hy => hl y (by simp [hy])) g' (CI.seed hP hi hG hC a2 a3 e1) ⟨fun h => rtb.fresh ?_, fun hf => ?_, fun hf x0 h0 => ?_⟩ e
        · have f1 := step1.fresh (hS.fresh h)
          rw [hv]
          split
          · rw [← tv1] at f1 ⊢
            exact sleepIsland_fresh hnd aw1 f1
          · exact f1
        · rw [hfin] at hf
          have hfs : (s.w.phys b).island = false := by rw [← cm.island]; exact hf
          have hnn : ¬ ((w.phys b).island = true ∨ b ∈ s.island.bodies) := by rw [← hfl, hfs]; simp
          rw [not_or] at hnn
          obtain ⟨b1, b2⟩ := hS.before (by simpa using hnn.1)
          refine ⟨timer_wakes.trans b1 (timer_wakes.trans (q := v.phys b) ?_ rtb), ((sp0.trans (k1 hnn.2)).trans rs).core.trans b2⟩
          rw [hv]
          split
          · rw [(sleepIsland_spec hnd).1 b hnn.2]; exact step1
          · exact step1
        · rw [hfin, cm.island, hfl] at hf
          have key : (v.phys b).awake = true ∧ (v.phys b).sleepTime ≤ x0 + step.dt := by
            by_cases hm : b ∈ s.island.bodies
            · have hst : v1.typeOf b ≠ .static := by rw [tv1, ht]; exact hn
              have hA := aw1 b hm hst
              have h3 := h0.later (timer_wakes.trans (hS.before (a2.fresh b (List.mem_append.mpr (.inl hm))).1).1 step1)
              rw [hv]
              split
              · obtain ⟨-, -, q3⟩ := sleepIsland_spec (w := v1) (h := step.dt) (l := s.island.bodies) (solved := r) hnd
                rw [q3 ?_ b hm, timed_awake]
                · refine ⟨hA, ?_⟩
                  unfold timed
                  rw [if_neg hst]
                  dsimp only
                  split
                  · exact add_nonneg h3.pos h3.forward
                  · exact add_le_add_left h3.timer _
                · rintro ⟨hall, -⟩
                  have h2 := (hall b hm hst).2
                  unfold timeToSleep at h2
                  have h4 := h3.timer
                  have h5 := h3.early
                  linarith
              · exact ⟨hA, h3.timer.trans (le_add_of_nonneg_right h3.forward)⟩
            · have hwf := hS.after (hf.resolve_right hm) x0 h0
              have tb : Tm (w0.typeOf b) (w.phys b) (v.phys b) := by
                rw [hv]
                split
                · rw [(sleepIsland_spec hnd).1 b hm]; exact step1
                · exact step1
              exact ⟨tb.awake hwf.1, tb.1.elim (fun e => e.trans_le hwf.2) (fun e => e.trans_le (add_nonneg h0.pos h0.forward))⟩
          exact ⟨rtb.awake key.1, rtb.1.elim (fun e => e.trans_le key.2) (fun e => e.trans_le (add_nonneg h0.pos h0.forward))⟩

/-- What the solution of the islands makes of a body that is not static. -/
theorem solve_doze (hE : LeavesBodies env) (hP : PostSolveLinks env) {w w' : World F} (hw : WInv w) (hb : b ∈ w.g.bodyList) (hn : w.typeOf b ≠ .static)
    (e : w.solve env step = some w') : w'.typeOf b = w.typeOf b ∧ (Fresh (w.typeOf b) (w.phys b) → Fresh (w.typeOf b) (w'.phys b)) ∧
      (∀ s, Soon s step.dt (w.phys b) → ((w.phys b).awake = true → (w'.phys b).awake = true) ∧ (w'.phys b).sleepTime ≤ s + step.dt ∧
        ((w'.phys b).awake = true ∨ (w'.phys b).core = (w.phys b).core)) := by
  unfold solve at e
  simp only [Option.bind_eq_bind, Option.bind_eq_some_iff] at e
  obtain ⟨⟨w1, isl⟩, e1, w2, e2, e3⟩ := e
  have m1 := (solveIslands_mild e1).toWFrame
  have hD : DS b step.dt w w1 := by
    have m := (clearIslandFlags_mild w).toWFrame
    unfold solveIslands at e1
    refine seeds_doze hE hP hw.toGInv (w1 := w) hn rfl _ (fun y hy => by rw [m.g] at hy; exact hy) (GI.start w) (CI.start w) ⟨fun h => ((clearIslandFlags_timer w) b).2.fresh h, fun _ => ⟨((clearIslandFlags_timer w) b).2, (clearIslandFlags_spares w).core⟩, fun hf => ?_⟩ e1
    rw [(clearIslandFlags_spec w).1 b hb] at hf
    cases hf
  have p2 : w2.phys = w1.phys ∧ ∀ y, w2.typeOf y = w1.typeOf y := by
    refine foldlM_inv (fun v : World F => v.phys = w1.phys ∧ ∀ y, v.typeOf y = w1.typeOf y) e2 ⟨rfl, fun _ => rfl⟩ (fun x _ v v' hx hv => ?_)
    split at hv
    · cases hv; exact hx
    split at hv
    · cases hv; exact hx
    exact ⟨(synchronizeFixtures_phys hv).trans hx.1, fun y => (synchronizeFixtures_types hv y).trans (hx.2 y)⟩
  have p3 : w'.phys = w1.phys := (findNewContacts_phys e3).trans p2.1
  refine ⟨(findNewContacts_types e3 b).trans ((p2.2 b).trans (m1.typeOf b)), ?_, ?_⟩
  · rw [p3]; exact hD.fresh
  · rw [p3]
    intro s h0
    cases hf : (w1.phys b).island with
    | false =>
      obtain ⟨k1, k2⟩ := hD.before hf
      exact ⟨k1.awake, ((h0.later k1).timer).trans (le_add_of_nonneg_right h0.forward), .inr k2⟩
    | true =>
      obtain ⟨k1, k2⟩ := hD.after hf s h0
      exact ⟨fun _ => k1, k2, .inl k1⟩

/-! ### The continuous phase -/

/-- The body is awake, or where it was. -/
def Lies (p0 p : Phys F) : Prop :=
  p.awake = true ∨ (p.xf = p0.xf ∧ p.sweep.c = p0.sweep.c ∧ p.sweep.a = p0.sweep.a ∧ p.sweep.localCenter = p0.sweep.localCenter ∧ p.v = p0.v ∧ p.w = p0.w)

theorem Lies.core {p0 p q : Phys F} (h : Lies p0 p) (hc : q.core = p.core) (ha : p.awake = true → q.awake = true) : Lies p0 q := by
  rcases h with h | h
  · exact .inl (ha h)
  · right
    have e := core_eq hc
    rw [e]
    exact h

theorem doze_follows {dt : F} {p0 : Phys F} (hp : Posed p0) : Follows env dt b (fun v => v.typeOf b ≠ .static → Lies p0 (v.phys b)) (fun _ _ => True)
    (fun v => v.typeOf b ≠ .static → (v.phys b).awake = true) where
  full s h hs := (h (by rw [← s.type]; exact hs)).core s.core s.awake
  half _ _ := trivial
  advance _ _ _ _ _ := trivial
  restore := by
    intro v v1 v2 a h _ e s hs
    obtain ⟨p, hp1, rfl, -⟩ := advance_eq e
    have ht : v2.typeOf b = v.typeOf b := s.type
    have hs' : v.typeOf b ≠ .static := by rw [← ht]; exact hs
    have c1 : (v2.phys b).core = p.core := by
      have := s.core
      rw [show (v.setPhys b p).phys b = p from upd_same _ _ _] at this
      exact this
    have pk : p.awake = (v.phys b).awake ∧ p.v = (v.phys b).v ∧ p.w = (v.phys b).w := by
      unfold Phys.advance at hp1
      simp only [Option.bind_eq_bind, Option.bind_eq_some_iff] at hp1
      obtain ⟨sw, -, hp1⟩ := hp1
      cases hp1
      exact ⟨rfl, rfl, rfl⟩
    have e2 := core_eq c1
    have hfin : (v2.restore b (v.phys b).sweep).phys b = Phys.synchronizeTransform { v2.phys b with sweep := (v.phys b).sweep } := upd_same _ _ _
    rw [hfin]
    rcases h hs' with h | ⟨h1, h2, h3, h4, h5, h6⟩
    · left
      show (v2.phys b).awake = true
      refine s.awake ?_
      rw [show (v.setPhys b p).phys b = p from upd_same _ _ _, pk.1]
      exact h
    · right
      refine ⟨?_, h2, h3, h4, ?_, ?_⟩
      · have := hp
        unfold Posed at this
        rw [this]
        unfold Phys.synchronizeTransform
        dsimp only
        rw [h2, h3, h4]
      · show (v2.phys b).v = _
        rw [e2]; exact pk.2.1.trans h5
      · show (v2.phys b).w = _
        rw [e2]; exact pk.2.2.trans h6
  resync _ := trivial
  done s h hs := s.awake (h (by rw [← s.type]; exact hs))
  align := by
    intro v a s h _ _ _ es hs
    rw [show (v.setPhys b { v.phys b with sweep := s }).phys b = _ from upd_same _ _ _]
    rcases h hs with h | ⟨h1, h2, h3, h4, h5, h6⟩
    · exact .inl h
    · exact .inr ⟨h1, (advance_same es).1.trans h2, (advance_same es).2.trans h3, (advance_center es).trans h4, h5, h6⟩
  solve := by
    intro v v1 isl sub states i a _ _ _ _ _ _ _ _ _ _ hp ha hs
    rw [show ∀ q, (v.setPhys b q).phys b = q from fun q => upd_same _ _ _]
    show (v1.phys b).awake = true
    rcases hp with hp | hp
    · rw [hp]; exact ha hs
    · rw [hp]; exact ha hs
  release h _ _ e hs := by
    rw [synchronizeFixtures_phys e]
    exact .inl (h (by rw [← synchronizeFixtures_types e]; exact hs))
  stay h _ hs := .inl (h hs)

/-- A whole step. -/
theorem step_doze {w w' : World F} {dt : F} {vi pi : Nat} (hE : LeavesBodies env) (hP : PostSolveLinks env) (hT : ToiForward env)
    (hw : WInv w) (hc : w.stepComplete = true) (hb : b ∈ w.g.bodyList) (hn : w.typeOf b ≠ .static)
    (e : w.step env dt vi pi = some w') : w'.typeOf b = w.typeOf b ∧ (Fresh (w.typeOf b) (w.phys b) → Fresh (w.typeOf b) (w'.phys b)) ∧
      (∀ s, Soon s dt (w.phys b) → ((w.phys b).awake = true → (w'.phys b).awake = true) ∧ (w'.phys b).sleepTime ≤ s + dt ∧
        (Posed (w.phys b) → Lies (w.phys b) (w'.phys b))) := by
  unfold step at e
  simp only [Option.bind_eq_bind, Option.bind_eq_some_iff] at e
  obtain ⟨w1, e1, w2, e2, e3⟩ := e
  unfold stepLocked at e2
  simp only [Option.bind_eq_bind, Option.bind_eq_some_iff] at e2
  obtain ⟨w3, e4, w4, e5, w5, e6, e7⟩ := e2
  have k0 := stepBegin_phys e1
  have t0 := fun y => stepBegin_types e1 y
  obtain ⟨v, g1, rfl, -⟩ := stepBegin_good hw e1
  have hw1 : WInv { v with newContacts := false, locked := true } := g1.winv.frame rfl rfl
  obtain ⟨g3, -⟩ := collide_good hw1 e4
  have hb3 : b ∈ w3.g.bodyList := by rw [g3.bodyList]; show b ∈ v.g.bodyList; rw [g1.bodyList]; exact hb
  have tm3 : Each Tm w w3 := timer_wakes.tr (timer_wakes.same (w' := { v with newContacts := false, locked := true }) k0 (fun y => t0 y)) (collide_each timer_wakes (hE.polite timer_wakes) e4)
  have co3 : Each SameCore w w3 := sameCore_wakes.tr (sameCore_wakes.same (w' := { v with newContacts := false, locked := true }) k0 (fun y => t0 y)) (collide_each sameCore_wakes (hE.polite sameCore_wakes) e4)
  have n3 : w3.typeOf b ≠ .static := by rw [(tm3 b).1]; exact hn
  have hc3 : w3.stepComplete = true := (g3.rest.stepComplete.trans g1.rest.stepComplete).trans hc
  have d4 : WInv w4 ∧ w4.stepComplete = true ∧ b ∈ w4.g.bodyList ∧ w4.typeOf b = w.typeOf b ∧ (Fresh (w.typeOf b) (w.phys b) → Fresh (w.typeOf b) (w4.phys b)) ∧
      (∀ s, Soon s dt (w.phys b) → ((w.phys b).awake = true → (w4.phys b).awake = true) ∧ (w4.phys b).sleepTime ≤ s + dt ∧
        ((w4.phys b).awake = true ∨ (w4.phys b).core = (w.phys b).core)) := by
    split at e5
    · obtain ⟨s1, s2, s3⟩ := solve_doze hE hP g3.winv hb3 n3 e5
      have g4 := solve_good g3.winv e5
      refine ⟨g4.winv, by rw [g4.rest.stepComplete]; exact hc3, by rw [g4.bodyList]; exact hb3, s1.trans (tm3 b).1, fun h => ?_, fun s h => ?_⟩
      · rw [← (tm3 b).1]
        exact s2 (by rw [(tm3 b).1]; exact (tm3 b).2.fresh h)
      · obtain ⟨q1, q2, q3⟩ := s3 s (h.later (tm3 b).2)
        exact ⟨fun a => q1 ((tm3 b).2.awake a), q2, q3.imp id (fun h' => h'.trans (co3 b).2.1)⟩
    · cases e5
      exact ⟨g3.winv, hc3, hb3, (tm3 b).1, (tm3 b).2.fresh, fun s h => ⟨(tm3 b).2.awake, (h.later (tm3 b).2).timer.trans (le_add_of_nonneg_right h.forward), .inr (co3 b).2.1⟩⟩
  obtain ⟨i4, hc4, hb4, t4, f4, l4⟩ := d4
  have d5 : WInv w5 ∧ b ∈ w5.g.bodyList ∧ w5.typeOf b = w.typeOf b ∧ (Fresh (w.typeOf b) (w.phys b) → Fresh (w.typeOf b) (w5.phys b)) ∧
      (∀ s, Soon s dt (w.phys b) → ((w.phys b).awake = true → (w5.phys b).awake = true) ∧ (w5.phys b).sleepTime ≤ s + dt ∧
        (Posed (w.phys b) → Lies (w.phys b) (w5.phys b))) := by
    have l4' : ∀ s, Soon s dt (w.phys b) → Lies (w.phys b) (w4.phys b) := by
      intro s h
      rcases (l4 s h).2.2 with h | h
      · exact .inl h
      · right
        rw [core_eq h]
        exact ⟨rfl, rfl, rfl, rfl, rfl, rfl⟩
    split at e6
    · unfold solveToi at e6
      obtain ⟨t1, t2, t3, t5, t6, t7⟩ := toiReset_track hc4 i4 hb4
      have tt : w4.toiReset.typeOf b = w4.typeOf b := by unfold World.typeOf; rw [t5]
      have tmr := timer_wakes.tr (toiReset_timer w4) (toiLoop_timer hE _ e6)
      have ty5 : w5.typeOf b = w.typeOf b := (tmr b).1.trans t4
      have base : ∀ p0, Posed p0 → Lies p0 (w4.phys b) → TL b (fun v => v.typeOf b ≠ .static → Lies p0 (v.phys b)) w5 := fun p0 hp hl =>
        toiLoop_track (doze_follows hp) hE hT rfl _ ⟨t1, t2, t3, fun _ => by
          rw [t7]
          rcases hl with h | h
          · exact .inl h
          · exact .inr h, by rw [t5]; exact hb4⟩ e6
      have gs := solveToi_good i4 (by unfold solveToi; exact e6)
      refine ⟨gs.winv, by rw [gs.eq]; exact hb4, ty5, fun h => ?_, fun s h => ⟨fun a => (tmr b).2.awake ((l4 s h).1 a), (tmr b).2.1.elim (fun e => e.trans_le (l4 s h).2.1) (fun e => e.trans_le (add_nonneg h.pos h.forward)),
        fun hp => (base _ hp (l4' s h)).full (by rw [ty5]; exact hn)⟩⟩
      rw [← t4]
      exact (tmr b).2.fresh (by rw [t4]; exact f4 h)
    · cases e6
      exact ⟨i4, hb4, t4, f4, fun s h => ⟨(l4 s h).1, (l4 s h).2.1, fun _ => l4' s h⟩⟩
  obtain ⟨i5, hb5, t5, f5, l5⟩ := d5
  cases e3
  cases e7
  generalize hx : (if (World.timeStep { { v with newContacts := false } with locked := true } dt vi pi).dt > 0 then
    { w5 with invDt0 := (World.timeStep { { v with newContacts := false } with locked := true } dt vi pi).invDt } else w5) = x
  have hx' : x.phys = w5.phys ∧ x.g = w5.g := by rw [← hx]; split <;> exact ⟨rfl, rfl⟩
  have fin : ∀ u : World F, u.g = w5.g → (u.phys b = w5.phys b ∨ u.phys b = { w5.phys b with force := ⟨0, 0⟩, torque := 0 }) →
      u.typeOf b = w.typeOf b ∧ (Fresh (w.typeOf b) (w.phys b) → Fresh (w.typeOf b) (u.phys b)) ∧
      (∀ s, Soon s dt (w.phys b) → ((w.phys b).awake = true → (u.phys b).awake = true) ∧ (u.phys b).sleepTime ≤ s + dt ∧
        (Posed (w.phys b) → Lies (w.phys b) (u.phys b))) := by
    intro u hg hu
    refine ⟨by rw [← t5]; unfold World.typeOf; rw [hg], ?_⟩
    rcases hu with hu | hu
    · rw [hu]; exact ⟨f5, l5⟩
    · rw [hu]; exact ⟨f5, l5⟩
  show (if x.clearForces then x.clearForcesAll else x).typeOf b = _ ∧ _
  split
  · obtain ⟨c1, c2, c3⟩ := clearForcesAll_phys (w := x) (b := b) (by rw [hx'.2]; exact i5.body.nodup) (by rw [hx'.2]; exact hb5)
    exact fin _ (c2.trans hx'.2) (.inr (by rw [← hx'.1]; exact c1))
  · exact fin _ hx'.2 (.inl (by rw [hx'.1]))

/-! ### Histories -/

/-- Flag and timer are the same, or the timer has been reset. -/
def Nap (p p' : Phys F) : Prop := (p'.awake = p.awake ∧ p'.sleepTime = p.sleepTime) ∨ p'.sleepTime = 0

theorem Nap.fresh {t : BodyType} {p p' : Phys F} (h : Nap p p') (hp : Fresh t p) : Fresh t p' := by
  intro ht ha
  rcases h with ⟨h1, h2⟩ | h
  · rw [h2]; exact hp ht (h1 ▸ ha)
  · exact h

theorem reset_nap {t : BodyType} {fs : List (F × Shape F)} {p p' : Phys F} (e : Phys.resetMassData t fs p = some p') : p'.awake = p.awake ∧ p'.sleepTime = p.sleepTime := by
  have mc : ∀ (p : Phys F) c, (p.moveCenter c).awake = p.awake ∧ (p.moveCenter c).sleepTime = p.sleepTime := fun _ _ => ⟨rfl, rfl⟩
  unfold Phys.resetMassData at e
  dsimp only at e
  split at e
  · cases e; exact ⟨rfl, rfl⟩
  simp only [Option.bind_eq_bind, Option.bind_eq_some_iff] at e
  obtain ⟨acc, -, e⟩ := e
  repeat' split at e
  all_goals first
    | (cases e; done)
    | (cases e; exact mc _ _)

theorem run_nap {t : BodyType} {fs : List (F × Shape F)} {p p' : Phys F} {op : BodyOp F} (e : op.run t fs p = some p') : Nap p p' := by
  have aw : ∀ (p : Phys F) fl, Nap p (p.setAwake t fl) := fun p fl => by
    unfold Phys.setAwake; split
    · exact .inl ⟨rfl, rfl⟩
    split <;> exact .inr rfl
  have gate : ∀ (p : Phys F) wk, Nap p (p.applyGate t wk).1 := fun p wk => by
    unfold Phys.applyGate; split
    · exact .inl ⟨rfl, rfl⟩
    dsimp only
    split
    · exact aw _ _
    · exact .inl ⟨rfl, rfl⟩
  cases op <;> simp only [BodyOp.run, Option.some.injEq] at e
  case setFixedRotation flag =>
    unfold Phys.setFixedRotation at e
    split at e
    · cases e; exact .inl ⟨rfl, rfl⟩
    · have := reset_nap e
      exact .inl this
  case resetMassData => exact .inl (reset_nap e)
  all_goals subst e
  case setAwake => exact aw _ _
  case setLinearVelocity =>
    unfold Phys.setLinearVelocity
    split
    · exact .inl ⟨rfl, rfl⟩
    dsimp only
    split
    · exact aw _ _
    · exact .inl ⟨rfl, rfl⟩
  case setAngularVelocity =>
    unfold Phys.setAngularVelocity
    split
    · exact .inl ⟨rfl, rfl⟩
    dsimp only
    split
    · exact aw _ _
    · exact .inl ⟨rfl, rfl⟩
  case setSleepingAllowed flag =>
    unfold Phys.setSleepingAllowed
    dsimp only
    split
    · exact .inl ⟨rfl, rfl⟩
    · exact aw _ _
  case applyForce => unfold Phys.applyForce; dsimp only; split <;> exact gate _ _
  case applyForceToCenter => unfold Phys.applyForceToCenter; dsimp only; split <;> exact gate _ _
  case applyTorque => unfold Phys.applyTorque; dsimp only; split <;> exact gate _ _
  case applyLinearImpulse => unfold Phys.applyLinearImpulse; dsimp only; split <;> exact gate _ _
  case applyLinearImpulseToCenter => unfold Phys.applyLinearImpulseToCenter; dsimp only; split <;> exact gate _ _
  case applyAngularImpulse => unfold Phys.applyAngularImpulse; dsimp only; split <;> exact gate _ _
  all_goals exact .inl ⟨rfl, rfl⟩

theorem fresh_stable0 : Stable0 env (fun _ => True) (fun _ _ => True) (Fresh (F := F)) where
  run t fs p p' op _ e h := (run_nap e).fresh h
  awake _ := trivial
  reset _ := trivial
  obeys _ _ _ _ _ _ _ _ := trivial
  retype t t' fs p p' e h := by
    intro ht ha
    unfold Phys.settle at ha ⊢
    rw [if_neg ht] at ha ⊢
    unfold Phys.setAwake at ha ⊢
    rw [if_neg ht] at ha ⊢
    rfl
  data t m p p' e h := by
    have mc : ∀ (p : Phys F) c, (p.moveCenter c).awake = p.awake ∧ (p.moveCenter c).sleepTime = p.sleepTime := fun _ _ => ⟨rfl, rfl⟩
    unfold Phys.setMassData at e
    split at e
    · cases e; exact h
    dsimp only at e
    repeat' split at e
    all_goals first
      | (cases e; done)
      | (cases e; exact Nap.fresh (.inl (mc _ _)) h)
  clear _ _ h := h
  new d p _ e := by
    unfold Phys.new at e
    split at e
    · cases e; exact fun _ _ => rfl
    · cases e
  place _ _ _ _ h := h
  shift _ _ _ h := h

theorem Spec.PlainHist.fresh (hE : LeavesBodies env) (hP : PostSolveLinks env) (hT : ToiForward env) {w : World F} (h : PlainHist env w) :
    ∀ b ∈ w.g.bodyList, Fresh (w.typeOf b) (w.phys b) := by
  induction h with
  | new => intro b hb; cases hb
  | @call w w' c hw ok hs hd e ih =>
    have hi := (whist_inv hw.hist).toWInv
    by_cases hst : ∃ dt vi pi, c = .step dt vi pi
    · obtain ⟨dt, vi, pi, rfl⟩ := hst
      intro b hb
      have hb' : b ∈ w.g.bodyList := by rw [(step_good hi e).eq] at hb; exact hb
      by_cases hn : w.typeOf b = .static
      · intro ht
        exact absurd ((show w'.typeOf b = w.typeOf b by unfold World.typeOf; rw [(step_good hi e).body]).trans hn) ht
      · obtain ⟨s1, s2, -⟩ := step_doze hE hP hT hi hw.complete hb' hn e
        rw [s1]
        exact s2 (ih b hb')
    · exact call_stable fresh_stable0 c (fun _ _ => trivial) (fun _ _ _ => trivial) (fun dt vi pi hc => hst ⟨dt, vi, pi, hc⟩) e ih

end
end B2
