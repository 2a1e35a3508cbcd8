import Verif.Proofs.WorldSolveTrack
import Verif.Proofs.WorldBody

/-! Following one body through a whole step. -/
namespace B2
set_option linter.unusedSectionVars false
open World Spec

section
variable {F : Type} [Field F] [LinearOrder F] [IsStrictOrderedRing F] [Elem F]

/-- As `Spares`, but contacts may be gone. -/
structure Calms (b : Nat) (w w' : World F) : Prop extends SameBoxes b w w' where
  core : (w'.phys b).core = (w.phys b).core
  awake : (w.phys b).awake = true → (w'.phys b).awake = true

theorem Spares.calms {b : Nat} {w w' : World F} (h : Spares b w w') : Calms b w w' := ⟨h.toSameBoxes, h.core, h.awake⟩
theorem Calms.trans {b : Nat} {w w' w'' : World F} (h : Calms b w w') (h' : Calms b w' w'') : Calms b w w'' :=
  ⟨h.toSameBoxes.trans h'.toSameBoxes, h'.core.trans h.core, h'.awake ∘ h.awake⟩

variable {env : Env F} {b : Nat}

theorem contactDestroy_bp {w w' : World F} {c : Nat} (e : w.contactDestroy env c = some w') : w'.bp = w.bp := by
  unfold contactDestroy at e
  simp only [Option.bind_eq_bind, Option.bind_eq_some_iff] at e
  obtain ⟨bA, hA, bB, hB, w1, h1, w2, h2, e⟩ := e
  obtain ⟨q1, -⟩ := listen_if h1
  have h3 : w2.bp = w1.bp := by
    unfold unlink at h2
    simp only [Option.bind_eq_bind, Option.bind_eq_some_iff] at h2
    obtain ⟨cl, -, la, -, lb, -, h2⟩ := h2
    split at h2
    · cases h2
    · cases h2; rfl
  cases e
  rw [← q1.bp, ← h3]
  unfold wakeOnDestroy
  split
  · rfl
  · rfl

theorem collide_bp {w w' : World F} (e : w.collide env = some w') : w'.bp = w.bp := by
  unfold collide at e
  simp only [Option.bind_eq_bind, Option.bind_eq_some_iff] at e
  obtain ⟨⟨w1, ds⟩, e1, e2⟩ := e
  have act : ∀ {v v' : World F} {c bA bB : Nat} {r : Bool}, v.collideActive env c bA bB = some (v', r) → v'.bp = v.bp := by
    intro v v' c bA bB r e
    unfold collideActive at e
    dsimp only at e
    split at e
    · cases e; rfl
    simp only [Option.bind_eq_bind, Option.bind_eq_some_iff] at e
    obtain ⟨_, -, _, -, _, -, _, -, _, -, e⟩ := e
    split at e
    · cases e; rfl
    simp only [Option.bind_eq_some_iff] at e
    obtain ⟨u, e, e'⟩ := e
    cases e'
    exact (contactUpdate_spec e).1.bp
  have one : ∀ {v v' : World F} {c : Nat} {r : Bool}, v.collideOne env c = some (v', r) → v'.bp = v.bp := by
    intro v v' c r e
    unfold collideOne at e
    simp only [Option.bind_eq_bind, Option.bind_eq_some_iff] at e
    obtain ⟨_, -, _, -, e⟩ := e
    have hq := (filterCollide_quiet env v (v.g.contacts c).fA (v.g.contacts c).fB).bp
    split at e
    · split at e
      · cases e; rfl
      split at e
      · cases e; exact hq
      · exact (act e).trans hq
    · exact act e
  have loop : ∀ (l : List Nat) {v v' : World F} {a a' : List Nat}, collideLoop env l v a = some (v', a') → v'.bp = v.bp := by
    intro l
    induction l with
    | nil => intro v v' a a' e; cases e; rfl
    | cons c l ih =>
      intro v v' a a' e
      unfold collideLoop at e
      simp only [Option.bind_eq_bind, Option.bind_eq_some_iff] at e
      obtain ⟨⟨u, k⟩, e1, e2⟩ := e
      exact (ih e2).trans (one e1)
  exact (foldlM_inv (fun x : World F => x.bp = w1.bp) e2 rfl (fun _ _ _ _ hx h => (contactDestroy_bp h).trans hx)).trans (loop _ e1)

theorem SameBoxes.good {w w' : World F} (h : Good env w w') (hbp : w'.bp = w.bp) : SameBoxes b w w' := by
  have hf : w'.g.fixtures = w.g.fixtures := by rw [h.eq]
  refine ⟨by unfold World.typeOf; rw [h.body], by rw [h.body], by rw [h.body], hf, ?_, fun f _ i id _ _ => by rw [hbp]⟩
  intro f i
  have hbl : w'.g.bodyList = w.g.bodyList := by rw [h.eq]
  have hen : ∀ y, (w'.g.bodies y).enabled = (w.g.bodies y).enabled := fun y => by rw [h.body]
  unfold Live
  simp only [hbl, hen, hf]

theorem collide_calms (hE : LeavesBodies env) {w w' : World F} (h : WInv w) (e : w.collide env = some w') : Calms b w w' := by
  obtain ⟨k1, k2⟩ := (collide_each sameCore_wakes (hE.polite sameCore_wakes) e b).2
  exact ⟨.good (collide_good h e).1 (collide_bp e), k1, k2⟩

/-- The lists of the world have changed at most in the contacts. -/
structure SameLists (g g' : Graph F) : Prop where
  body : ∀ b, g'.bodies b = { g.bodies b with contacts := (g'.bodies b).contacts }
  eq : g' = { g with bodies := g'.bodies, contacts := g'.contacts, contactList := g'.contactList, contactCount := g'.contactCount, nextContact := g'.nextContact }

theorem toiReset_track {w : World F} (hc : w.stepComplete = true) (hw : WInv w) (hb : b ∈ w.g.bodyList) :
    WInv w.toiReset ∧ Clean w.toiReset ∧ Timely w.toiReset ∧ w.toiReset.g = w.g ∧ w.toiReset.bp = w.bp ∧
    (w.toiReset.phys b = { w.phys b with island := false, sweep := { (w.phys b).sweep with alpha0 := 0 } }) := by
  obtain ⟨r1, r2, -⟩ := toiReset_ready hw (fun h => by rw [hc] at h; cases h)
  have hg := (toiReset_soft w).g
  have hbp := (toiReset_soft w).bp
  obtain ⟨f1, f2, f3⟩ := foldl_setPhys_spec (fun (w : World F) y => { w.phys y with island := false, sweep := { (w.phys y).sweep with alpha0 := 0 } })
    (fun w w' y h => by dsimp only; rw [h]) w.g.bodyList w hw.body.nodup
  obtain ⟨q1, q2, q3⟩ := setCsts_same w.g.contactList (fun (_ : World F) (c : Nat) => c)
    (fun w c => { w.cst c with toiFlag := false, island := false, toiCount := 0, toi := 1 })
    (w.g.bodyList.foldl (fun (w : World F) y => w.setPhys y { w.phys y with island := false, sweep := { (w.phys y).sweep with alpha0 := 0 } }) w)
  have he : w.toiReset = w.g.contactList.foldl (fun (w : World F) c => w.setCst c { w.cst c with toiFlag := false, island := false, toiCount := 0, toi := 1 })
      (w.g.bodyList.foldl (fun (w : World F) y => w.setPhys y { w.phys y with island := false, sweep := { (w.phys y).sweep with alpha0 := 0 } }) w) := by
    unfold toiReset
    rw [if_pos hc]
    dsimp only
    rw [f1]
  have hp : ∀ y ∈ w.g.bodyList, w.toiReset.phys y = { w.phys y with island := false, sweep := { (w.phys y).sweep with alpha0 := 0 } } := by
    intro y hy
    rw [he, q3, f3, if_pos hy]
  refine ⟨r1, r2, ⟨fun y hy => ?_, fun c hc' hf => ?_⟩, hg, hbp, hp b hb⟩
  · rw [hp y (by rw [← hg]; exact hy)]
  · have : ∀ (l : List Nat) (v : World F), (c ∈ l ∨ (v.cst c).toiFlag = false) → ((l.foldl (fun (w : World F) c => w.setCst c { w.cst c with toiFlag := false, island := false, toiCount := 0, toi := 1 }) v).cst c).toiFlag = false := by
      intro l
      induction l with
      | nil => intro v h; rcases h with h | h; · cases h
               · exact h
      | cons a l ih =>
        intro v h
        rw [List.foldl_cons]
        refine ih _ ?_
        by_cases hca : c = a
        · right
          subst hca
          show (upd v.cst c _ c).toiFlag = false
          rw [upd_same]
        · rcases h with h | h
          · rcases List.mem_cons.mp h with h | h
            · exact absurd h hca
            · exact .inl h
          · right
            show (upd v.cst a _ c).toiFlag = false
            rw [upd_other _ _ hca]; exact h
    rw [he, this _ _ (.inl (by rw [← hg]; exact hc'))] at hf
    cases hf

theorem clearForcesAll_phys {w : World F} (hw : w.g.bodyList.Nodup) (hb : b ∈ w.g.bodyList) :
    w.clearForcesAll.phys b = { w.phys b with force := ⟨0, 0⟩, torque := 0 } ∧ w.clearForcesAll.g = w.g ∧ w.clearForcesAll.bp = w.bp := by
  obtain ⟨f1, f2, f3⟩ := foldl_setPhys_spec (fun (w : World F) y => { w.phys y with force := ⟨0, 0⟩, torque := 0 })
    (fun w w' y h => by dsimp only; rw [h]) w.g.bodyList w hw
  unfold clearForcesAll
  exact ⟨by rw [f3, if_pos hb], f1, f2⟩

/-- What a step makes of a body, up to the forces. -/
structure Ended (b : Nat) (u w' : World F) : Prop where
  g : w'.g = u.g
  bp : w'.bp = u.bp
  phys : w'.phys b = u.phys b ∨ w'.phys b = { u.phys b with force := ⟨0, 0⟩, torque := 0 }

/-- Following body `b` through a whole step. -/
theorem step_track {P0 P1 P2 Full Done : World F → Prop} {Half : F → World F → Prop} {w w' : World F} {dt : F} {vi pi : Nat} (hE : LeavesBodies env) (hP : PostSolveLinks env) (hT : ToiForward env)
    (hw : WInv w) (hc : w.stepComplete = true) (hb : b ∈ w.g.bodyList)
    (H1 : 0 < dt → ∀ g, GInv g → SameLists w.g g → Solves env (w.timeStep dt vi pi) g w.gravity (w.allowSleep = true) b P0 P1 P2)
    (H2 : 0 < dt → Follows env dt b Full Half Done)
    (h0 : ∀ v, Calms b w v → P0 v)
    (hr : ∀ v u, P2 v → SameBoxes b v u → (Met v.g b → Met u.g b) → u.phys b = { v.phys b with island := false, sweep := { (v.phys b).sweep with alpha0 := 0 } } → Full u)
    (e : w.step env dt vi pi = some w') :
    ∃ u : World F, WInv u ∧ Ended b u w' ∧ (0 < dt → Full u ∨ (P2 u ∧ w.continuous = false)) ∧ (¬ 0 < dt → Calms b w u) := by
  unfold step at e
  simp only [Option.bind_eq_bind, Option.bind_eq_some_iff] at e
  obtain ⟨w1, e1, w2, e2, e3⟩ := e
  unfold stepLocked at e2
  simp only [Option.bind_eq_bind, Option.bind_eq_some_iff] at e2
  obtain ⟨w3, e4, w4, e5, w5, e6, e7⟩ := e2
  have c1 : Calms b w w1 := by
    unfold stepBegin at e1
    split at e1
    · simp only [Option.bind_eq_bind, Option.bind_eq_some_iff] at e1
      obtain ⟨v, e1, e1'⟩ := e1
      cases e1'
      exact ((findNewContacts_spares hw e1).trans (.unmoved (w := v) (w' := { v with newContacts := false }) rfl rfl rfl)).calms
    · cases e1; exact (Spares.refl _).calms
  obtain ⟨v, g1, rfl, -⟩ := stepBegin_good hw e1
  have hw1 : WInv { v with newContacts := false, locked := true } := g1.winv.frame rfl rfl
  obtain ⟨g3, -⟩ := collide_good hw1 e4
  have c3 : Calms b w w3 := (c1.trans (Spares.unmoved (w := { v with newContacts := false }) (w' := { v with newContacts := false, locked := true }) rfl rfl rfl).calms).trans (collide_calms hE hw1 e4)
  have lists : SameLists w.g w3.g := by
    have a1 := g3.body
    have a2 := g3.eq
    dsimp only at a1 a2
    exact ⟨fun y => by rw [a1, g1.body], by rw [a2, g1.eq]⟩
  have hb3 : b ∈ w3.g.bodyList := by rw [lists.eq]; exact hb
  have hr3 : w3.gravity = w.gravity ∧ w3.allowSleep = w.allowSleep ∧ w3.continuous = w.continuous ∧ w3.stepComplete = w.stepComplete := by
    refine ⟨g3.rest.gravity.trans g1.rest.gravity, g3.rest.allowSleep.trans g1.rest.allowSleep, g3.rest.continuous.trans g1.rest.continuous, g3.rest.stepComplete.trans g1.rest.stepComplete⟩
  have hts : World.timeStep { { v with newContacts := false } with locked := true } dt vi pi = w.timeStep dt vi pi := by
    unfold World.timeStep
    dsimp only
    rw [g1.rest.invDt0, show v.warmStarting = w.warmStarting by rw [g1.rest.eq]]
  rw [hts] at e5 e6 e7
  have hdt : (w.timeStep dt vi pi).dt = dt := rfl
  rw [hdt] at e5 e6 e7
  have tail : ∀ {u : World F}, WInv u → b ∈ u.g.bodyList → u = w5 → ∃ u' : World F, WInv u' ∧ Ended b u' w' ∧ u'.g = u.g ∧ u'.bp = u.bp ∧ u'.phys = u.phys := by
    rintro u hu hbu rfl
    cases e3
    cases e7
    generalize hx : (if dt > 0 then { u with invDt0 := (w.timeStep dt vi pi).invDt } else u) = x
    have hx' : x.phys = u.phys ∧ x.g = u.g ∧ x.bp = u.bp := by rw [← hx]; split <;> exact ⟨rfl, rfl, rfl⟩
    refine ⟨x, hu.frame hx'.2.1 hx'.2.2, ?_, hx'.2.1, hx'.2.2, hx'.1⟩
    split
    · obtain ⟨t1, t2, t3⟩ := clearForcesAll_phys (w := x) (b := b) (by rw [hx'.2.1]; exact hu.body.nodup) (by rw [hx'.2.1]; exact hbu)
      exact ⟨t2, t3, .inr t1⟩
    · exact ⟨rfl, rfl, .inl rfl⟩
  by_cases hpos : 0 < dt
  · rw [if_pos ⟨hr3.2.2.2.trans hc, hpos⟩] at e5
    have H1 := H1 hpos w3.g g3.winv.toGInv lists
    have p2 : P2 w4 := solve_track H1 hE hP g3.winv hb3 rfl (fun _ t => t.mem) hr3.1 (by rw [hr3.2.1]; exact id) (h0 w3 c3) e5
    have g4 := solve_good g3.winv e5
    have hb4 : b ∈ w4.g.bodyList := by rw [g4.bodyList]; exact hb3
    have hc4 : w4.stepComplete = true := by rw [g4.rest.stepComplete, hr3.2.2.2]; exact hc
    split at e6
    · unfold solveToi at e6
      obtain ⟨t1, t2, t3, t4, t5, t6⟩ := toiReset_track hc4 g4.winv hb4
      have fl : Full w4.toiReset := hr w4 _ p2 (.same t4 t5) (by rw [t4]; exact id) t6
      have tl := toiLoop_track (H2 hpos) hE hT hdt _ ⟨t1, t2, t3, fl, by rw [t4]; exact hb4⟩ e6
      obtain ⟨u, u1, u2, u3, u4, u5⟩ := tail tl.winv tl.mem rfl
      exact ⟨u, u1, u2, fun _ => .inl ((H2 hpos).full (.unmoved u3 u4 (by rw [u5])) tl.full), fun h => absurd hpos h⟩
    · rename_i hcont
      cases e6
      obtain ⟨u, u1, u2, u3, u4, u5⟩ := tail g4.winv hb4 rfl
      refine ⟨u, u1, u2, fun _ => .inr ⟨H1.p2 (.unmoved u3 u4 (by rw [u5])) p2, ?_⟩, fun h => absurd hpos h⟩
      have : w4.continuous = w.continuous := by rw [g4.rest.continuous]; exact hr3.2.2.1
      rw [← this]
      by_contra hn
      exact hcont ⟨by simpa using hn, hpos⟩
  · rw [if_neg (fun h => hpos h.2)] at e5
    cases e5
    rw [if_neg (fun h => hpos h.2)] at e6
    cases e6
    obtain ⟨u, u1, u2, u3, u4, u5⟩ := tail g3.winv hb3 rfl
    exact ⟨u, u1, u2, fun h => absurd h hpos, fun _ => c3.trans (Spares.unmoved u3 u4 (by rw [u5])).calms⟩

end
end B2
