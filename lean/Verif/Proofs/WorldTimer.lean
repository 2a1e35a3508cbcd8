import Verif.Proofs.WorldPhys

/-! What a step does to the sleep timer of a body, except for the timers of the islands themselves: it can only wake a body and reset its timer. -/
namespace B2
set_option linter.unusedSectionVars false
open World Spec

section
variable {F : Type} [Field F] [LinearOrder F] [IsStrictOrderedRing F] [Elem F] {env : Env F}

/-- The timer is the same or has been reset, and the body is awake unless nothing has happened to either. -/
def Tm (_ : BodyType) (p q : Phys F) : Prop :=
  (q.sleepTime = p.sleepTime ∨ q.sleepTime = 0) ∧ (q.awake = true ∨ (q.awake = p.awake ∧ q.sleepTime = p.sleepTime))

theorem timer_wakes : Wakes (Tm (F := F)) where
  refl := fun _ _ => ⟨.inl rfl, .inr ⟨rfl, rfl⟩⟩
  trans := by
    rintro t p q r ⟨a, b⟩ ⟨c, d⟩
    refine ⟨?_, ?_⟩
    · rcases c with c | c
      · rw [c]; exact a
      · exact .inr c
    · rcases d with d | ⟨d, d'⟩
      · exact .inl d
      · rw [d, d']; exact b
  wake := by
    intro t p
    unfold Phys.setAwake
    split
    · exact ⟨.inl rfl, .inr ⟨rfl, rfl⟩⟩
    · exact ⟨.inr rfl, .inl rfl⟩

theorem Tm.awake {t : BodyType} {p q : Phys F} (h : Tm t p q) (hp : p.awake = true) : q.awake = true := by
  rcases h.2 with h | ⟨h, -⟩
  · exact h
  · rw [h]; exact hp

theorem tmSet {w : World F} {b : Nat} {q : Phys F} (h1 : q.awake = (w.phys b).awake) (h2 : q.sleepTime = (w.phys b).sleepTime) : Each Tm w (w.setPhys b q) :=
  timer_wakes.setPhys ⟨.inl h2, .inr ⟨h1, h2⟩⟩

theorem clearIslandFlags_timer (w : World F) : Each Tm w w.clearIslandFlags := by
  unfold clearIslandFlags
  dsimp only
  refine timer_wakes.tr ?_ (timer_wakes.foldl _ (fun v j _ => timer_wakes.same rfl))
  refine timer_wakes.tr ?_ (timer_wakes.foldl _ (fun v j _ => timer_wakes.same rfl))
  exact timer_wakes.foldl _ (fun v j _ => tmSet (by rfl) (by rfl))

theorem pushBody_timer {b o : Nat} {s s' : Search F} (h : pushBody b s o = some s') : Each Tm s.w s'.w := by
  unfold pushBody at h
  split at h
  · cases h; exact timer_wakes.each_refl _
  · split at h
    · cases h
    · cases h; exact tmSet (by rfl) (by rfl)

theorem visitContact_timer {b : Nat} {s s' : Search F} {e : Nat × Nat} (h : visitContact b s e = some s') : Each Tm s.w s'.w := by
  unfold visitContact at h
  dsimp only at h
  split at h
  · cases h; exact timer_wakes.each_refl _
  split at h
  · cases h; exact timer_wakes.each_refl _
  split at h
  · cases h; exact timer_wakes.each_refl _
  have m := pushBody_timer h
  exact timer_wakes.tr (timer_wakes.same rfl) m

theorem visitJoint_timer {b : Nat} {s s' : Search F} {e : Nat × Nat} (h : visitJoint b s e = some s') : Each Tm s.w s'.w := by
  unfold visitJoint at h
  split at h
  · cases h; exact timer_wakes.each_refl _
  split at h
  · cases h; exact timer_wakes.each_refl _
  have m := pushBody_timer h
  exact timer_wakes.tr (timer_wakes.same rfl) m

theorem visitBody_timer {b : Nat} {s s' : Search F} (h : visitBody s b = some s') : Each Tm s.w s'.w := by
  unfold visitBody at h
  split at h
  · cases h
  dsimp only at h
  set w1 := s.w.setPhys b { s.w.phys b with islandIndex := s.island.bodies.length } with hw1
  have m1 : Each Tm s.w w1 := tmSet (by rfl) (by rfl)
  split at h
  · cases h; exact m1
  have m2 : Each Tm w1 (w1.setPhys b { w1.phys b with awake := true }) := timer_wakes.setPhys ⟨.inl rfl, .inl rfl⟩
  simp only [Option.bind_eq_bind, Option.bind_eq_some_iff] at h
  obtain ⟨s1, h1, h2⟩ := h
  refine timer_wakes.tr (timer_wakes.tr m1 m2) (timer_wakes.tr (w' := s1.w) ?_ ?_)
  · exact foldlM_inv (fun x : Search F => Each Tm _ x.w) h1 (timer_wakes.each_refl _) (fun e _ x x' hx hv => timer_wakes.tr hx (visitContact_timer hv))
  · exact foldlM_inv (fun x : Search F => Each Tm _ x.w) h2 (timer_wakes.each_refl _) (fun e _ x x' hx hv => timer_wakes.tr hx (visitJoint_timer hv))

theorem search_timer : ∀ {n : Nat} {s s' : Search F}, search n s = some s' → Each Tm s.w s'.w := by
  intro n
  induction n with
  | zero => intro s s' h; cases h
  | succ n ih =>
    intro s s' h
    unfold search at h
    split at h
    · cases h; exact timer_wakes.each_refl _
    · rename_i b st hst
      simp only [Option.bind_eq_bind, Option.bind_eq_some_iff] at h
      obtain ⟨s1, h1, h2⟩ := h
      have m := visitBody_timer h1
      exact timer_wakes.tr m (ih h2)

theorem writeBack_timer (w : World F) (bodies : List Nat) (states : List (BState F)) : Each Tm w (w.writeBack bodies states) := by
  unfold writeBack
  exact timer_wakes.foldl _ (fun _ _ _ => tmSet (by rfl) (by rfl))

theorem releaseStatics_timer (w : World F) (l : List Nat) : Each Tm w (w.releaseStatics l) := by
  refine timer_wakes.foldl _ (fun v b _ => ?_)
  split
  · exact tmSet (by rfl) (by rfl)
  · exact timer_wakes.each_refl _

theorem toiReset_timer (w : World F) : Each Tm w w.toiReset := by
  unfold toiReset
  split
  · refine timer_wakes.tr ?_ (timer_wakes.foldl _ (fun v j _ => timer_wakes.same rfl))
    exact timer_wakes.foldl _ (fun v j _ => tmSet (by rfl) (by rfl))
  · exact timer_wakes.each_refl _

theorem alignSweeps_timer {w w' : World F} {bA bB : Nat} {a : F} (e : w.alignSweeps bA bB = some (w', a)) : Each Tm w w' := by
  unfold alignSweeps at e
  dsimp only at e
  split at e
  · simp only [Option.bind_eq_bind, Option.bind_eq_some_iff] at e
    obtain ⟨s, es, e⟩ := e
    split at e
    · cases e; exact tmSet (by rfl) (by rfl)
    · cases e
  split at e
  · simp only [Option.bind_eq_bind, Option.bind_eq_some_iff] at e
    obtain ⟨s, es, e⟩ := e
    split at e
    · cases e; exact tmSet (by rfl) (by rfl)
    · cases e
  split at e
  · cases e; exact timer_wakes.each_refl _
  · cases e

theorem toiOf_timer {w w' : World F} {c : Nat} {r : Option F} (e : w.toiOf env c = some (w', r)) : Each Tm w w' := by
  unfold toiOf at e
  dsimp only at e
  split at e
  · cases e; exact timer_wakes.each_refl _
  split at e
  · cases e; exact timer_wakes.each_refl _
  split at e
  · cases e; exact timer_wakes.each_refl _
  split at e
  · cases e; exact timer_wakes.each_refl _
  simp only [Option.bind_eq_bind, Option.bind_eq_some_iff] at e
  obtain ⟨bA, -, bB, -, e⟩ := e
  split at e
  · cases e
  split at e
  · cases e
  split at e
  · cases e; exact timer_wakes.each_refl _
  split at e
  · cases e; exact timer_wakes.each_refl _
  simp only [Option.bind_eq_some_iff] at e
  obtain ⟨⟨w1, a⟩, e1, r, -, e2⟩ := e
  cases e2
  exact timer_wakes.tr (alignSweeps_timer e1) (timer_wakes.same rfl)

theorem toiScan_timer : ∀ (l : List Nat) {w w' : World F} {b b' : Option Nat} {m m' : F},
    toiScan env l w b m = some (w', b', m') → Each Tm w w' := by
  intro l
  induction l with
  | nil => intro w w' b b' m m' e; cases e; exact timer_wakes.each_refl _
  | cons c l ih =>
    intro w w' b b' m m' e
    unfold toiScan at e
    simp only [Option.bind_eq_bind, Option.bind_eq_some_iff] at e
    obtain ⟨⟨w1, a⟩, e1, e2⟩ := e
    refine timer_wakes.tr (toiOf_timer e1) ?_
    dsimp only at e2
    split at e2
    · split at e2
      · exact ih e2
      · exact ih e2
    · exact ih e2

theorem advance_timer {w w' : World F} {b : Nat} {a : F} (e : w.advance b a = some w') : Each Tm w w' := by
  unfold World.advance Phys.advance at e
  simp only [Option.bind_eq_bind, Option.bind_eq_some_iff] at e
  obtain ⟨p, ⟨s, es, e1⟩, e2⟩ := e
  cases e1
  cases e2
  have h := advance_center es
  exact tmSet (by rfl) (by rfl)

theorem restore_timer {w : World F} {b : Nat} {s : Sweep F} :
    Each Tm w (w.restore b s) := tmSet (by rfl) (by rfl)

theorem toiAddBody_timer (x : World F × Island) (b : Nat) : Each Tm x.1 (toiAddBody x b).1 := tmSet (by rfl) (by rfl)

theorem toiVisit_timer (hE : LeavesBodies env) {alpha : F} {body : Nat} {x x' : World F × Island} {e : Nat × Nat}
    (h : toiVisit env alpha body x e = some x') : Each Tm x.1 x'.1 := by
  unfold toiVisit at h
  dsimp only at h
  split at h
  · cases h; exact timer_wakes.each_refl _
  split at h
  · cases h
  split at h
  · cases h; exact timer_wakes.each_refl _
  split at h
  · cases h; exact timer_wakes.each_refl _
  simp only [Option.bind_eq_bind, Option.bind_eq_some_iff] at h
  obtain ⟨w1, h1, w2, h2, h3⟩ := h
  have m2 : Each Tm x.1 w2 := by
    refine timer_wakes.tr (w' := w1) ?_ (contactUpdate_each timer_wakes (hE.polite timer_wakes) h2)
    split at h1
    · exact advance_timer h1
    · cases h1; exact timer_wakes.each_refl _
  split at h3
  · cases h3
    exact timer_wakes.tr m2 (restore_timer)
  · split at h3
    · cases h3; exact timer_wakes.tr m2 (timer_wakes.same rfl)
    · cases h3
      refine timer_wakes.tr m2 (timer_wakes.tr ?_ (toiAddBody_timer _ _))
      dsimp only
      split
      · exact timer_wakes.tr (w' := w2.setCst e.1 { w2.cst e.1 with island := true }) (timer_wakes.same rfl) (timer_wakes.awaken _ _)
      · exact timer_wakes.same rfl

theorem toiVisits_timer (hE : LeavesBodies env) {alpha : F} {body : Nat} {x x' : World F × Island}
    (h : toiVisits env alpha x body = some x') : Each Tm x.1 x'.1 := by
  unfold toiVisits at h
  split at h
  · exact foldlM_inv (fun y : World F × Island => Each Tm x.1 y.1) h (timer_wakes.each_refl _) (fun e _ y y' hy hv => timer_wakes.tr hy (toiVisit_timer hE hv))
  · cases h; exact timer_wakes.each_refl _

theorem islandSolveToi_timer (hE : LeavesBodies env) {w w' : World F} {cap : Nat} {isl : Island} {step : TimeStep F} {iA iB : Int}
    (e : w.islandSolveToi env cap isl step iA iB = some w') : Each Tm w w' := by
  unfold islandSolveToi at e
  split at e
  · cases e
  simp only [Option.bind_eq_bind, Option.bind_eq_some_iff] at e
  obtain ⟨bA, -, bB, -, e⟩ := e
  refine timer_wakes.tr ?_ (report_each timer_wakes (hE.polite timer_wakes) e)
  refine timer_wakes.tr ?_ (writeBack_timer _ _ _)
  exact timer_wakes.tr (tmSet (by rfl) (by rfl)) (tmSet (by rfl) (by rfl))

theorem toiRelease_timer {w w' : World F} {b : Nat} (e : w.toiRelease b = some w') : Each Tm w w' := by
  unfold toiRelease at e
  dsimp only at e
  split at e
  · cases e; exact tmSet (by rfl) (by rfl)
  simp only [Option.bind_eq_bind, Option.bind_eq_some_iff] at e
  obtain ⟨w1, e1, e2⟩ := e
  cases e2
  refine timer_wakes.tr (w' := w1) (timer_wakes.tr (tmSet (by rfl) (by rfl)) (timer_wakes.same (synchronizeFixtures_phys e1) (synchronizeFixtures_types e1))) ?_
  exact timer_wakes.foldl _ (fun v j _ => timer_wakes.same rfl)

theorem toiSolid_timer (hE : LeavesBodies env) {step : TimeStep F} {w w' : World F} {c bA bB : Nat} {alpha : F}
    (e : w.toiSolid env step c bA bB alpha = some w') : Each Tm w w' := by
  unfold toiSolid at e
  simp only [Option.bind_eq_bind, Option.bind_eq_some_iff] at e
  obtain ⟨x2, e0, w3, e3, w4, e4, e5⟩ := e
  unfold toiIsland at e0
  simp only [Option.bind_eq_bind, Option.bind_eq_some_iff] at e0
  obtain ⟨x1, e1, e2⟩ := e0
  refine timer_wakes.tr (w' := w4) ?_ (timer_wakes.same (findNewContacts_phys e5) (findNewContacts_types e5))
  refine timer_wakes.tr (w' := w3) ?_ (timer_wakes.foldlM e4 (fun _ _ _ _ h => toiRelease_timer h))
  refine timer_wakes.tr (w' := x2.1) ?_ (islandSolveToi_timer hE e3)
  refine timer_wakes.tr (w' := x1.1) ?_ (toiVisits_timer hE e2)
  refine timer_wakes.tr ?_ (toiVisits_timer hE e1)
  refine timer_wakes.tr (w' := (w.setAwake bA true).setAwake bB true) (timer_wakes.tr (timer_wakes.awaken _ _) (timer_wakes.awaken _ _)) ?_
  refine timer_wakes.tr (toiAddBody_timer ((w.setAwake bA true).setAwake bB true, ⟨[], [c], []⟩) bA) ?_
  exact timer_wakes.tr (toiAddBody_timer (toiAddBody ((w.setAwake bA true).setAwake bB true, ⟨[], [c], []⟩) bA) bB) (timer_wakes.same rfl)

theorem toiEvent_timer (hE : LeavesBodies env) {step : TimeStep F} {w w' : World F} {c : Nat} {alpha : F} {solid : Bool}
    (e : w.toiEvent env step c alpha = some (w', solid)) : Each Tm w w' := by
  unfold toiEvent at e
  simp only [Option.bind_eq_bind, Option.bind_eq_some_iff] at e
  obtain ⟨bA, -, bB, -, w1, e1, w2, e2, w3, e3, e4⟩ := e
  have m : Each Tm w w3 := timer_wakes.tr (timer_wakes.tr (advance_timer e1) (advance_timer e2)) (contactUpdate_each timer_wakes (hE.polite timer_wakes) e3)
  have back : ∀ v : World F, v.phys = w3.phys → (∀ b, v.typeOf b = w3.typeOf b) → Each Tm w3 ((v.restore bA (w.phys bA).sweep).restore bB (w.phys bB).sweep) :=
    fun v hv ht => timer_wakes.tr (timer_wakes.tr (timer_wakes.same hv ht) restore_timer) restore_timer
  split at e4
  · cases e4
    exact timer_wakes.tr m (back _ rfl fun _ => rfl)
  · simp only [Option.bind_eq_some_iff] at e4
    obtain ⟨w4, e4, e5⟩ := e4
    cases e5
    have t := toiSolid_timer hE e4
    exact timer_wakes.tr m (timer_wakes.tr (timer_wakes.same rfl) t)

theorem toiLoop_timer (hE : LeavesBodies env) {step : TimeStep F} : ∀ (n : Nat) {w w' : World F},
    toiLoop env step n w = some w' → Each Tm w w' := by
  intro n
  induction n with
  | zero => intro w w' e; cases e
  | succ n ih =>
    intro w w' e
    unfold toiLoop at e
    simp only [Option.bind_eq_bind, Option.bind_eq_some_iff] at e
    obtain ⟨⟨w1, best, m⟩, e1, e2⟩ := e
    have m1 := toiScan_timer _ e1
    dsimp only at e2
    split at e2
    · cases e2; exact timer_wakes.tr m1 (timer_wakes.same rfl)
    split at e2
    · cases e2; exact timer_wakes.tr m1 (timer_wakes.same rfl)
    simp only [Option.bind_eq_some_iff] at e2
    obtain ⟨⟨w2, solid⟩, e2, e3⟩ := e2
    have m2 := timer_wakes.tr m1 (toiEvent_timer hE e2)
    split at e3
    · cases e3; exact timer_wakes.tr m2 (timer_wakes.same rfl)
    · exact timer_wakes.tr m2 (ih e3)

theorem islandMove_timer (hE : LeavesBodies env) {w v : World F} {cap : Nat} {isl : Island} {step : TimeStep F} {r : Bool}
    (h1 : w.islandMove env cap isl step = some (v, r)) : Each Tm w v := by
  unfold islandMove at h1
  split at h1
  · cases h1
  simp only [Option.bind_eq_bind, Option.bind_eq_some_iff] at h1
  obtain ⟨w1, h1, h2⟩ := h1
  cases h2
  refine timer_wakes.tr ?_ (report_each timer_wakes (hE.polite timer_wakes) h1)
  refine timer_wakes.tr ?_ (writeBack_timer _ _ _)
  refine timer_wakes.tr ?_ (timer_wakes.foldl _ (fun v j _ => timer_wakes.same rfl))
  exact timer_wakes.foldl _ (fun v j _ => tmSet (by rfl) (by rfl))

/-! ### Bodies in islands are awake -/

theorem pushBody_bodies {b o : Nat} {s s' : Search F} (h : pushBody b s o = some s') : s'.island.bodies = s.island.bodies := by
  unfold pushBody at h
  split at h
  · cases h; rfl
  split at h
  · cases h
  · cases h; rfl

theorem visitContact_bodies {b : Nat} {s s' : Search F} {e : Nat × Nat} (h : visitContact b s e = some s') : s'.island.bodies = s.island.bodies := by
  unfold visitContact at h
  dsimp only at h
  split at h
  · cases h; rfl
  split at h
  · cases h; rfl
  split at h
  · cases h; rfl
  have m := pushBody_bodies h
  exact m

theorem visitJoint_bodies {b : Nat} {s s' : Search F} {e : Nat × Nat} (h : visitJoint b s e = some s') : s'.island.bodies = s.island.bodies := by
  unfold visitJoint at h
  split at h
  · cases h; rfl
  split at h
  · cases h; rfl
  have m := pushBody_bodies h
  exact m

/-- The bodies of the island that are not static are awake. -/
def AwakeIn (w : World F) (l : List Nat) : Prop := ∀ y ∈ l, w.typeOf y ≠ .static → (w.phys y).awake = true

theorem AwakeIn.later {w w' : World F} {l : List Nat} (h : AwakeIn w l) (ht : Each Tm w w') : AwakeIn w' l := fun y hy hs =>
  (ht y).2.awake (h y hy (by rw [← (ht y).1]; exact hs))

theorem visitBody_awake {b : Nat} {s s' : Search F} (h : visitBody s b = some s') (hs : AwakeIn s.w s.island.bodies) : AwakeIn s'.w s'.island.bodies := by
  unfold visitBody at h
  split at h
  · cases h
  dsimp only at h
  set w1 := s.w.setPhys b { s.w.phys b with islandIndex := s.island.bodies.length } with hw1
  have m1 : Each Tm s.w w1 := tmSet (by rfl) (by rfl)
  have k1 := hs.later m1
  split at h
  · rename_i hst
    cases h
    intro y hy hy'
    rcases List.mem_append.mp hy with hy | hy
    · exact k1 y hy hy'
    · rw [List.mem_singleton] at hy
      subst hy
      exact absurd hst hy'
  have m2 : Each Tm w1 (w1.setPhys b { w1.phys b with awake := true }) := timer_wakes.setPhys ⟨.inl rfl, .inl rfl⟩
  simp only [Option.bind_eq_bind, Option.bind_eq_some_iff] at h
  obtain ⟨s1, h1, h2⟩ := h
  have i1 := foldlM_inv (fun x : Search F => Each Tm (w1.setPhys b { w1.phys b with awake := true }) x.w ∧ x.island.bodies = s.island.bodies ++ [b]) h1 ⟨timer_wakes.each_refl _, rfl⟩
    (fun e _ x x' hx hv => ⟨timer_wakes.tr hx.1 (visitContact_timer hv), (visitContact_bodies hv).trans hx.2⟩)
  have i2 := foldlM_inv (fun x : Search F => Each Tm (w1.setPhys b { w1.phys b with awake := true }) x.w ∧ x.island.bodies = s.island.bodies ++ [b]) h2 i1
    (fun e _ x x' hx hv => ⟨timer_wakes.tr hx.1 (visitJoint_timer hv), (visitJoint_bodies hv).trans hx.2⟩)
  rw [i2.2]
  refine AwakeIn.later ?_ i2.1
  intro y hy hy'
  rcases List.mem_append.mp hy with hy | hy
  · exact (k1.later m2) y hy hy'
  · rw [List.mem_singleton] at hy
    subst hy
    show (upd w1.phys y _ y).awake = true
    rw [upd_same]

theorem search_awake : ∀ {n : Nat} {s s' : Search F}, search n s = some s' → AwakeIn s.w s.island.bodies → AwakeIn s'.w s'.island.bodies := by
  intro n
  induction n with
  | zero => intro s s' h; cases h
  | succ n ih =>
    intro s s' h hs
    unfold World.search at h
    split at h
    · cases h; exact hs
    · simp only [Option.bind_eq_bind, Option.bind_eq_some_iff] at h
      obtain ⟨s1, h1, h2⟩ := h
      exact ih h2 (visitBody_awake (s := { s with stack := _ }) h1 hs)

theorem toiVisit_awake (hE : LeavesBodies env) {alpha : F} {body : Nat} {x x' : World F × Island} {e : Nat × Nat}
    (h : toiVisit env alpha body x e = some x') (hx : AwakeIn x.1 x.2.bodies) : AwakeIn x'.1 x'.2.bodies := by
  have ht := toiVisit_timer hE h
  have old := hx.later ht
  have : x'.2.bodies = x.2.bodies ∨ (x'.2.bodies = x.2.bodies ++ [e.2] ∧ (x'.1.typeOf e.2 ≠ .static → (x'.1.phys e.2).awake = true)) := by
    unfold toiVisit at h
    dsimp only at h
    split at h
    · cases h; exact .inl rfl
    split at h
    · cases h
    split at h
    · cases h; exact .inl rfl
    split at h
    · cases h; exact .inl rfl
    simp only [Option.bind_eq_bind, Option.bind_eq_some_iff] at h
    obtain ⟨w1, h1, w2, h2, h3⟩ := h
    split at h3
    · cases h3; exact .inl rfl
    split at h3
    · cases h3; exact .inl rfl
    cases h3
    refine .inr ⟨rfl, fun hs => ?_⟩
    have add : ∀ (v : World F) (isl : Island), ((toiAddBody (v, isl) e.2).1.phys e.2).awake = (v.phys e.2).awake := by
      intro v isl
      show (upd v.phys e.2 _ e.2).awake = _
      rw [upd_same]
    rw [add]
    split
    · rename_i hs'
      show (upd (w2.setCst e.1 _).phys e.2 _ e.2).awake = true
      rw [upd_same]
      unfold Phys.setAwake
      rw [if_neg hs']
      rfl
    · rename_i hs'
      rw [if_neg hs'] at hs
      exact absurd hs hs'
  rcases this with h1 | ⟨h1, h2⟩
  · rw [h1]; exact old
  · rw [h1]
    intro y hy hs
    rcases List.mem_append.mp hy with hy | hy
    · exact old y hy hs
    · rw [List.mem_singleton] at hy
      subst hy
      exact h2 hs

theorem toiVisits_awake (hE : LeavesBodies env) {alpha : F} {body : Nat} {x x' : World F × Island}
    (h : toiVisits env alpha x body = some x') (hx : AwakeIn x.1 x.2.bodies) : AwakeIn x'.1 x'.2.bodies := by
  unfold toiVisits at h
  split at h
  · exact foldlM_inv (fun y : World F × Island => AwakeIn y.1 y.2.bodies) h hx (fun e _ y y' hy hv => toiVisit_awake hE hv hy)
  · cases h; exact hx

/-- The bodies of the island around a time of impact are awake. -/
theorem toiIsland_awake (hE : LeavesBodies env) {w : World F} {c bA bB : Nat} {a : F} {x : World F × Island} (e : w.toiIsland env c bA bB a = some x) :
    AwakeIn x.1 x.2.bodies := by
  unfold toiIsland at e
  simp only [Option.bind_eq_bind, Option.bind_eq_some_iff] at e
  obtain ⟨x1, e1, e2⟩ := e
  refine toiVisits_awake hE e2 (toiVisits_awake hE e1 ?_)
  have a1 : ∀ (v : World F) (y : Nat), v.typeOf y ≠ .static → ((v.setAwake y true).phys y).awake = true := by
    intro v y hy
    show (upd v.phys y _ y).awake = true
    rw [upd_same]
    unfold Phys.setAwake
    rw [if_neg hy]
    rfl
  have t1 : Each Tm (w.setAwake bA true) ((w.setAwake bA true).setAwake bB true) := timer_wakes.awaken _ _
  have k : AwakeIn ((w.setAwake bA true).setAwake bB true) [bA, bB] := by
    intro y hy hs
    rcases List.mem_cons.mp hy with rfl | hy
    · exact (t1 y).2.awake (a1 _ _ hs)
    · rw [List.mem_singleton] at hy
      subst hy
      exact a1 _ _ hs
  have := (k.later (toiAddBody_timer ((w.setAwake bA true).setAwake bB true, ⟨[], [c], []⟩) bA)).later
    (toiAddBody_timer (toiAddBody ((w.setAwake bA true).setAwake bB true, ⟨[], [c], []⟩) bA) bB)
  exact this.later (timer_wakes.same rfl)

end
end B2
