import Verif.Proofs.WorldTotal

/-! What is true of a world between two sub-steps, through every history of calls; the step does not panic. -/
namespace B2
set_option linter.unusedSectionVars false
open World Spec

section
variable {F : Type} [Field F] [LinearOrder F] [IsStrictOrderedRing F] [Elem F]

namespace World

/-- Island flags, places in the interval and the completion flag are the same. -/
structure Held (w w' : World F) : Prop where
  island : ∀ b, (w'.phys b).island = (w.phys b).island
  alpha0 : ∀ b, (w'.phys b).sweep.alpha0 = (w.phys b).sweep.alpha0
  complete : w'.stepComplete = w.stepComplete
  list : ∀ b ∈ w'.g.bodyList, b ∈ w.g.bodyList

namespace Held
variable {w w' w'' : World F}
theorem refl (w : World F) : Held w w := ⟨fun _ => rfl, fun _ => rfl, rfl, fun _ => id⟩
theorem trans (h : Held w w') (h' : Held w' w'') : Held w w'' :=
  ⟨fun b => (h'.island b).trans (h.island b), fun b => (h'.alpha0 b).trans (h.alpha0 b), h'.complete.trans h.complete,
    fun b hb => h.list b (h'.list b hb)⟩
theorem quiet (h : Quiet w w') : Held w w' := ⟨h.toCalm0.island, h.toCalm0.alpha0, h.stepComplete, by rw [h.g]; exact fun _ => id⟩
theorem same (h : w'.phys = w.phys) (hc : w'.stepComplete = w.stepComplete) (hl : ∀ b ∈ w'.g.bodyList, b ∈ w.g.bodyList) : Held w w' :=
  ⟨fun b => by rw [h], fun b => by rw [h], hc, hl⟩
theorem after (h : Held w' w'') (hp : w'.phys = w.phys) (hc : w'.stepComplete = w.stepComplete) (hl : ∀ b ∈ w'.g.bodyList, b ∈ w.g.bodyList) : Held w w'' :=
  (same hp hc hl).trans h
theorem before (h : Held w w') (hp : w''.phys = w'.phys) (hc : w''.stepComplete = w'.stepComplete) (hl : ∀ b ∈ w''.g.bodyList, b ∈ w'.g.bodyList) : Held w w'' :=
  h.trans (same hp hc hl)
theorem setPhys {b : Nat} {p : Phys F} (h1 : p.island = (w.phys b).island) (h2 : p.sweep.alpha0 = (w.phys b).sweep.alpha0) : Held w (w.setPhys b p) :=
  ⟨proj_upd (fun q : Phys F => q.island) h1, proj_upd (fun q : Phys F => q.sweep.alpha0) h2, rfl, fun _ => id⟩
theorem foldlM {α : Type} {f : World F → α → Option (World F)} {l : List α} (e : l.foldlM f w = some w')
    (hf : ∀ x ∈ l, ∀ v v', f v x = some v' → Held v v') : Held w w' :=
  foldlM_inv (fun x => Held w x) e (.refl w) (fun x hx v v' h e => h.trans (hf x hx v v' e))
theorem foldl {α : Type} {f : World F → α → World F} {l : List α} (w : World F) (hf : ∀ x ∈ l, ∀ v, Held v (f v x)) : Held w (l.foldl f w) :=
  foldl_inv (fun x => Held w x) (.refl w) (fun x hx v h => h.trans (hf x hx v))
end Held

theorem listen_held {env : Env F} {w w' : World F} {k : EventKind} (e : w.listen env k = some w') : Held w w' := .quiet (listen_quiet e).1

theorem goodbye_held {env : Env F} {w w' : World F} {k : EventKind} (e : w.goodbye env k = some w') : Held w w' := by
  unfold goodbye at e
  split at e
  · exact .quiet (emit_quiet e).1
  · cases e; exact .refl _

theorem setAwake_held (w : World F) (b : Nat) (flag : Bool) : Held w (w.setAwake b flag) := .quiet (setAwake_quiet w b flag)

theorem unlink_held {w w' : World F} {c bA bB : Nat} (e : w.unlink c bA bB = some w') : Held w w' := by
  unfold unlink at e
  simp only [Option.bind_eq_bind, Option.bind_eq_some_iff] at e
  obtain ⟨_, -, _, -, _, -, e⟩ := e
  split at e
  · cases e
  · cases e; exact .same (by rfl) (by rfl) (fun _ => id)

theorem contactDestroy_held {env : Env F} {w w' : World F} {c : Nat} (e : w.contactDestroy env c = some w') : Held w w' := by
  unfold contactDestroy at e
  simp only [Option.bind_eq_bind, Option.bind_eq_some_iff] at e
  obtain ⟨bA, -, bB, -, w1, e1, w2, e2, e3⟩ := e
  have h1 : Held w w1 := by
    split at e1
    · exact listen_held e1
    · cases e1; exact .refl _
  cases e3
  refine (h1.trans (unlink_held e2)).trans ?_
  unfold wakeOnDestroy
  split
  · exact (setAwake_held _ _ _).trans (setAwake_held _ _ _)
  · exact .refl _

theorem destroyContacts_held {env : Env F} {w w' : World F} {l : List (Nat × Nat)} (e : destroyContacts env l w = some w') : Held w w' :=
  Held.foldlM e (fun _ _ _ _ h => contactDestroy_held h)

theorem destroyContactsOf_held {env : Env F} {f : Nat} : ∀ (l : List (Nat × Nat)) {w w' : World F}, destroyContactsOf env f l w = some w' → Held w w' := by
  intro l
  induction l with
  | nil => intro w w' e; cases e; exact .refl _
  | cons a l ih =>
    intro w w' e
    unfold destroyContactsOf at e
    simp only [Option.bind_eq_bind, Option.bind_eq_some_iff] at e
    obtain ⟨w1, e1, e2⟩ := e
    have h1 : Held w w1 := by
      split at e1
      · exact contactDestroy_held e1
      · cases e1; exact .refl _
    exact h1.trans (ih e2)

theorem bodyOp_held {w w' : World F} {b : Nat} {op : BodyOp F} (e : w.bodyOp b op = some w') : Held w w' :=
  .quiet (userOp_quiet (op := .body b op) e).1

theorem resetMassData_held {w w' : World F} {b : Nat} (e : w.resetMassData b = some w') : Held w w' := bodyOp_held (op := .resetMassData) e

theorem createProxies_held {w w' : World F} {f : Nat} {xf : Xf F} (e : w.createProxies f xf = some w') : Held w w' := by
  unfold createProxies at e
  dsimp only at e
  split at e
  · cases e
  simp only [Option.bind_eq_bind, Option.bind_eq_some_iff] at e
  obtain ⟨n, -, e⟩ := e
  refine Held.after (Held.foldlM e fun i _ v v' h => ?_) (by rfl) (by rfl) (fun _ => id)
  unfold createProxy at h
  simp only [Option.bind_eq_bind, Option.bind_eq_some_iff] at h
  obtain ⟨_, -, _, -, _, -, h⟩ := h
  cases h
  exact .same (by rfl) (by rfl) (fun _ => id)

theorem destroyProxies_held {w w' : World F} {f : Nat} (e : w.destroyProxies f = some w') : Held w w' := by
  unfold destroyProxies at e
  simp only [Option.bind_eq_bind, Option.bind_eq_some_iff] at e
  obtain ⟨w1, e1, e2⟩ := e
  cases e2
  refine Held.before (w' := w1) (Held.foldlM e1 fun i _ v v' h => ?_) (by rfl) (by rfl) (fun _ => id)
  unfold destroyProxy at h
  simp only [Option.bind_eq_bind, Option.bind_eq_some_iff] at h
  obtain ⟨_, -, _, -, _, -, h⟩ := h
  cases h
  exact .same (by rfl) (by rfl) (fun _ => id)

theorem synchronize_held {xf1 xf2 : Xf F} {w w' : World F} {f : Nat} (e : synchronize xf1 xf2 w f = some w') : Held w w' := by
  unfold synchronize at e
  refine Held.foldlM e fun i _ v v' h => ?_
  unfold synchronizeProxy at h
  simp only [Option.bind_eq_bind, Option.bind_eq_some_iff] at h
  obtain ⟨_, -, _, -, _, -, _, -, _, -, h⟩ := h
  cases h
  exact .same (by rfl) (by rfl) (fun _ => id)

theorem synchronizeFixtures_held {w w' : World F} {b : Nat} (e : w.synchronizeFixtures b = some w') : Held w w' := by
  unfold synchronizeFixtures at e
  dsimp only at e
  split at e
  · exact Held.foldlM e (fun _ _ _ _ h => synchronize_held h)
  · exact Held.foldlM e (fun _ _ _ _ h => synchronize_held h)

theorem touchProxies_held {w w' : World F} {f : Nat} (e : w.touchProxies f = some w') : Held w w' := by
  unfold touchProxies at e
  refine Held.foldlM e fun i _ v v' h => ?_
  simp only [Option.bind_eq_bind, Option.bind_eq_some_iff] at h
  obtain ⟨_, -, _, -, _, -, h⟩ := h
  cases h
  exact .same (by rfl) (by rfl) (fun _ => id)

theorem flagContacts_held (w : World F) (a b : Nat) : Held w (w.flagContacts a b) := by
  unfold flagContacts
  refine Held.foldl w fun e _ v => ?_
  split
  · exact .same (by rfl) (by rfl) (fun _ => id)
  · exact .refl _

theorem destroyJoint_held {w w' : World F} {j : Nat} (e : w.destroyJoint j = some w') : Held w w' := by
  unfold destroyJoint at e
  split at e
  · cases e
  simp only [Option.bind_eq_bind, Option.bind_eq_some_iff] at e
  obtain ⟨jl, -, la, -, lb, -, e⟩ := e
  split at e
  · cases e
  have h1 : Held w (({ w with g := { w.g with jointList := jl } } : World F).setAwake (w.g.joints j).a true |>.setAwake (w.g.joints j).b true) :=
    Held.after ((setAwake_held _ _ _).trans (setAwake_held _ _ _)) (by rfl) (by rfl) (fun _ => id)
  cases e
  split
  · exact h1.trans (Held.after (flagContacts_held _ _ _) (by rfl) (by rfl) (fun _ => id))
  · exact h1.before (by rfl) (by rfl) (fun _ => id)

theorem createFixture_held {w w' : World F} {b f : Nat} {d : FixDef F} (e : w.createFixture b d = some (w', f)) : Held w w' := by
  unfold createFixture at e
  split at e
  · cases e
  simp only [Option.bind_eq_bind, Option.bind_eq_some_iff] at e
  obtain ⟨n, -, w1, e1, w2, e2, e3⟩ := e
  cases e3
  have h1 : Held w w1 := by
    split at e1
    · exact Held.after (createProxies_held e1) (by rfl) (by rfl) (fun _ => id)
    · cases e1; exact .same (by rfl) (by rfl) (fun _ => id)
  have h2 : Held w1 w2 := by
    split at e2
    · exact Held.after (resetMassData_held e2) (by rfl) (by rfl) (fun _ => id)
    · cases e2; exact .same (by rfl) (by rfl) (fun _ => id)
  exact h1.trans (h2.before (by rfl) (by rfl) (fun _ => id))

theorem destroyFixture_held {env : Env F} {w w' : World F} {b f : Nat} (e : w.destroyFixture env b f = some w') : Held w w' := by
  unfold destroyFixture at e
  split at e
  · cases e
  split at e
  · cases e
  split at e
  · cases e
  simp only [Option.bind_eq_bind, Option.bind_eq_some_iff] at e
  obtain ⟨fl, -, w1, e1, w2, e2, e3⟩ := e
  have h1 : Held w w1 := Held.after (destroyContactsOf_held _ e1) (by rfl) (by rfl) (fun _ => id)
  have h2 : Held w1 w2 := by
    split at e2
    · exact destroyProxies_held e2
    · cases e2; exact .refl _
  exact (h1.trans h2).trans (Held.after (resetMassData_held e3) (by rfl) (by rfl) (fun _ => id))

theorem setType_held {env : Env F} {w w' : World F} {b : Nat} {t : BodyType} (e : w.setType env b t = some w') : Held w w' := by
  unfold setType at e
  split at e
  · cases e
  split at e
  · cases e; exact .refl _
  simp only [Option.bind_eq_bind, Option.bind_eq_some_iff] at e
  obtain ⟨w1, e1, w2, e2, w3, e3, e4⟩ := e
  have h1 : Held w w1 := Held.after (resetMassData_held e1) (by rfl) (by rfl) (fun _ => id)
  have h2 : Held w1 w2 := by
    split at e2
    · exact Held.trans (Held.setPhys (by rfl) (by rfl)) (synchronizeFixtures_held e2)
    · cases e2; exact .refl _
  have h3 : Held w2 w3 := ((setAwake_held _ _ _).trans (Held.setPhys (by rfl) (by rfl))).trans (destroyContacts_held e3)
  exact (h1.trans (h2.trans h3)).trans (Held.after (Held.foldlM e4 (fun _ _ _ _ h => touchProxies_held h)) (by rfl) (by rfl) (fun _ => id))

theorem setEnabled_held {env : Env F} {w w' : World F} {b : Nat} {flag : Bool} (e : w.setEnabled env b flag = some w') : Held w w' := by
  unfold setEnabled at e
  split at e
  · cases e
  dsimp only at e
  split at e
  · simp only [Option.bind_eq_bind, Option.bind_eq_some_iff] at e
    obtain ⟨w1, e1, e2⟩ := e
    cases e2
    have h1 : Held w w1 := Held.after (Held.foldlM e1 (fun _ _ _ _ h => createProxies_held h)) (by rfl) (by rfl) (fun _ => id)
    exact Held.before h1 (by rfl) (by rfl) (fun _ => id)
  · simp only [Option.bind_eq_bind, Option.bind_eq_some_iff] at e
    obtain ⟨w1, e1, w2, e2, e3⟩ := e
    cases e3
    have h1 : Held w w1 := Held.after (Held.foldlM e1 (fun _ _ _ _ h => destroyProxies_held h)) (by rfl) (by rfl) (fun _ => id)
    exact (h1.trans (destroyContacts_held e2)).before (by rfl) (by rfl) (fun _ => id)

theorem refilter_held {w w' : World F} {f : Nat} (e : w.refilter f = some w') : Held w w' := by
  unfold refilter at e
  split at e
  · cases e; exact .refl _
  split at e
  · cases e
  · exact touchProxies_held e

theorem destroyBody_held {env : Env F} {w w' : World F} {b : Nat} (e : w.destroyBody env b = some w') : Held w w' := by
  unfold destroyBody at e
  split at e
  · cases e
  split at e
  · cases e
  simp only [Option.bind_eq_bind, Option.bind_eq_some_iff] at e
  obtain ⟨w1, e1, w2, e2, w3, e3, bl, e4, e5⟩ := e
  cases e5
  unfold removeOne at e4
  split at e4
  on_goal 2 => cases e4
  cases e4
  have h1 : Held w w1 := Held.foldlM e1 fun x _ v v' h => by
    simp only [Option.bind_eq_bind, Option.bind_eq_some_iff] at h
    obtain ⟨u, a, b⟩ := h
    exact (goodbye_held a).trans (destroyJoint_held b)
  have h2 : Held w1 w2 := Held.after (destroyContacts_held e2) (by rfl) (by rfl) (fun _ => id)
  have h3 : Held w2 w3 := Held.after (Held.foldlM e3 fun x _ v v' h => by
    simp only [Option.bind_eq_bind, Option.bind_eq_some_iff] at h
    obtain ⟨u, a, u', b, c⟩ := h
    cases c
    exact ((goodbye_held a).trans (destroyProxies_held b)).before (by rfl) (by rfl) (fun _ => id)) (by rfl) (by rfl) (fun _ => id)
  exact (h1.trans (h2.trans h3)).before (by rfl) (by rfl) (fun x hx => List.mem_of_mem_erase hx)

/-- Between two sub-steps no body is flagged or at the end of its interval. -/
def Between (w : World F) : Prop := w.stepComplete = false → Clean w ∧ Early w

theorem Held.between {w w' : World F} (h : Held w w') (hw : Between w) : Between w' := by
  intro hc
  obtain ⟨a, b⟩ := hw (h.complete ▸ hc)
  exact ⟨fun x hx => (h.island x).trans (a x (h.list x hx)), fun x hx => by rw [h.alpha0]; exact b x (h.list x hx)⟩

theorem collide_held {env : Env F} {w w' : World F} (e : w.collide env = some w') : Held w w' := by
  unfold collide at e
  simp only [Option.bind_eq_bind, Option.bind_eq_some_iff] at e
  obtain ⟨⟨w1, ds⟩, e1, e2⟩ := e
  have act : ∀ {v v' : World F} {c bA bB : Nat} {r : Bool}, v.collideActive env c bA bB = some (v', r) → Held v v' := by
    intro v v' c bA bB r e
    unfold collideActive at e
    dsimp only at e
    split at e
    · cases e; exact .refl _
    simp only [Option.bind_eq_bind, Option.bind_eq_some_iff] at e
    obtain ⟨_, -, _, -, _, -, _, -, _, -, e⟩ := e
    split at e
    · cases e; exact .refl _
    simp only [Option.bind_eq_some_iff] at e
    obtain ⟨u, e, e'⟩ := e
    cases e'
    obtain ⟨f, c0, -⟩ := contactUpdate_spec e
    exact ⟨c0.island, c0.alpha0, f.stepComplete, by rw [f.g]; exact fun _ => id⟩
  have one : ∀ {v v' : World F} {c : Nat} {r : Bool}, v.collideOne env c = some (v', r) → Held v v' := by
    intro v v' c r e
    unfold collideOne at e
    simp only [Option.bind_eq_bind, Option.bind_eq_some_iff] at e
    obtain ⟨_, -, _, -, e⟩ := e
    have hq := Held.quiet (filterCollide_quiet env v (v.g.contacts c).fA (v.g.contacts c).fB)
    split at e
    · split at e
      · cases e; exact .refl _
      split at e
      · cases e; exact hq
      · exact hq.trans (Held.after (act e) (by rfl) (by rfl) (fun _ => id))
    · exact act e
  have loop : ∀ (l : List Nat) {v v' : World F} {a a' : List Nat}, collideLoop env l v a = some (v', a') → Held v v' := by
    intro l
    induction l with
    | nil => intro v v' a a' e; cases e; exact .refl _
    | cons c l ih =>
      intro v v' a a' e
      unfold collideLoop at e
      simp only [Option.bind_eq_bind, Option.bind_eq_some_iff] at e
      obtain ⟨⟨u, k⟩, e1, e2⟩ := e
      exact (one e1).trans (ih e2)
  exact (loop _ e1).trans (Held.foldlM e2 (fun _ _ _ _ h => contactDestroy_held h))

theorem solve_complete {env : Env F} {w w' : World F} {step : TimeStep F} (h : WInv w) (e : w.solve env step = some w') : w'.stepComplete = w.stepComplete :=
  (solve_good h e).rest.stepComplete

/-- The start of a step, up to the continuous phase. -/
theorem stepBegin_held {env : Env F} {w w' : World F} (h : WInv w) (e : w.stepBegin env = some w') : Held w w' := by
  obtain ⟨v, g, rfl, -⟩ := stepBegin_good h e
  exact .same (stepBegin_phys e) (by show v.stepComplete = _; exact g.rest.stepComplete) (by show ∀ b ∈ v.g.bodyList, _; rw [g.bodyList]; exact fun _ => id)

theorem stepBegin_total {env : Env F} {w : World F} (h : WInv w) (hm : Meetable w.g) : ∃ w', w.stepBegin env = some w' := by
  unfold stepBegin
  split
  · obtain ⟨v, hv⟩ := findNewContacts_total (env := env) h hm
    simp only [hv, Option.bind_eq_bind, Option.bind_some]
    exact ⟨_, rfl⟩
  · exact ⟨_, rfl⟩

theorem stepLocked_total {env : Env F} (hs : env.Safe) {w : World F} (step : TimeStep F) (hd : 0 ≤ w.invDt0 → 0 < step.dt → 0 ≤ step.dtRatio ∧ 0 ≤ step.invDt) (h : WInv w) (hb : Between w) :
    (Willing env → Pts w → Fits w → ∃ w', w.stepLocked env step = some w') ∧ ∀ w', w.stepLocked env step = some w' → Between w' := by
  have tail : ∀ {w3 : World F}, Between w3 → Between (if (if step.dt > 0 then { w3 with invDt0 := step.invDt } else w3 : World F).clearForces then
      (if step.dt > 0 then { w3 with invDt0 := step.invDt } else w3).clearForcesAll else (if step.dt > 0 then { w3 with invDt0 := step.invDt } else w3)) := by
    intro w3 h3
    have h4 : Between (if step.dt > 0 then { w3 with invDt0 := step.invDt } else w3) := by
      split
      · exact h3
      · exact h3
    generalize (if step.dt > 0 then { w3 with invDt0 := step.invDt } else w3) = w4 at h4
    split
    · obtain ⟨q, -⟩ := clearForcesAll_quiet w4
      exact (Held.quiet q).between h4
    · exact h4
  have mid : ∀ {w1 w2 : World F}, w.collide env = some w1 → (if w1.stepComplete = true ∧ step.dt > 0 then w1.solve env step else some w1) = some w2 → WInv w2 ∧ Between w2 ∧ (Fits w1 → Fits w2) := by
    intro w1 w2 e1 e2
    obtain ⟨g1, -⟩ := collide_good h e1
    have b1 : Between w1 := (collide_held e1).between hb
    split at e2
    · rename_i hc
      have g2 := solve_good g1.winv e2
      refine ⟨g2.winv, fun hf => ?_, g2.fits (solve_each keepsTurn_moves (keepsTurn_polite env) (fun _ => trivial) e2)⟩
      rw [solve_complete g1.winv e2, hc.1] at hf
      cases hf
    · cases e2; exact ⟨g1.winv, b1, id⟩
  unfold stepLocked
  constructor
  · intro hE p0 hf
    obtain ⟨w1, e1⟩ := collide_total hs hE.narrow h hf.sane
    obtain ⟨g1, -⟩ := collide_good h e1
    have f1 := g1.fits (collide_each keepsTurn_moves.toWakes (keepsTurn_polite env) e1) hf
    have p1 := (collide_keep2 hE.tame e1).pts p0
    simp only [e1, Option.bind_eq_bind, Option.bind_some]
    obtain ⟨w2, e2⟩ : ∃ w2, (if w1.stepComplete = true ∧ step.dt > 0 then w1.solve env step else some w1) = some w2 := by
      split
      · rename_i hp'; exact solve_total hs hE.tame hE.solvers.impulses hE.links hE.solvers (hd p0.2.2.2 hp'.2).1 g1.winv p1.1 p1.2.2 f1.1
      · exact ⟨_, rfl⟩
    obtain ⟨i2, b2, f2⟩ := mid e1 e2
    have p2 : Pts w2 := by
      split at e2
      · rename_i hp'; exact (solve_keep2 hE.tame hE.solvers.impulses p1.2.2 (hd p0.2.2.2 hp'.2).1 e2).pts p1
      · cases e2; exact p1
    rw [e2, Option.bind_some]
    obtain ⟨w3, e3⟩ : ∃ w3, (if w2.continuous = true ∧ step.dt > 0 then w2.solveToi env step else some w2) = some w3 := by
      split
      · exact (solveToi_total hs i2 b2).1 hE p2.reset (f2 f1)
      · exact ⟨_, rfl⟩
    rw [e3, Option.bind_some]
    exact ⟨_, rfl⟩
  · intro w' e
    simp only [Option.bind_eq_bind, Option.bind_eq_some_iff] at e
    obtain ⟨w1, e1, w2, e2, w3, e3, e4⟩ := e
    obtain ⟨i2, b2, -⟩ := mid e1 e2
    cases e4
    refine tail ?_
    split at e3
    · have r := (solveToi_total hs i2 b2).2 _ e3
      exact fun _ => ⟨r.clean, r.early⟩
    · cases e3; exact b2

theorem step_total {env : Env F} (hs : env.Safe) {w : World F} (dt : F) (vi pi : Nat) (h : WInv w) (hb : Between w) :
    (Willing env → Pts w → Fits w → ∃ w', w.step env dt vi pi = some w') ∧ ∀ w', w.step env dt vi pi = some w' → Between w' := by
  have beg : ∀ {w1 : World F}, w.stepBegin env = some w1 → WInv { w1 with locked := true } ∧ Between { w1 with locked := true } ∧ (Fits w → Fits { w1 with locked := true }) := by
    intro w1 e1
    obtain ⟨v, g, hv, -⟩ := stepBegin_good h e1
    have b1 : Between w1 := (stepBegin_held h e1).between hb
    have ph := stepBegin_phys e1
    have ty := fun b => stepBegin_types e1 b
    subst hv
    have k1 : Each KeepsTurn w v := keepsTurn_moves.toWakes.same ph ty
    exact ⟨g.winv.frame rfl rfl, b1, fun f => (g.fits k1 f).frame rfl (keepsTurn_moves.toWakes.same rfl)⟩
  unfold step
  constructor
  · intro hE hp hf
    obtain ⟨w1, e1⟩ := stepBegin_total (env := env) h hf.1
    obtain ⟨i1, b1, f1⟩ := beg e1
    obtain ⟨w2, e2⟩ := (stepLocked_total hs (({ w1 with locked := true } : World F).timeStep dt vi pi) timeStep_pos i1 b1).1 hE ((stepBegin_keep2 e1).pts hp) (f1 hf)
    simp only [e1, e2, Option.bind_eq_bind, Option.bind_some]
    exact ⟨_, rfl⟩
  · intro w' e
    simp only [Option.bind_eq_bind, Option.bind_eq_some_iff] at e
    obtain ⟨w1, e1, w2, e2, e3⟩ := e
    cases e3
    obtain ⟨i1, b1, -⟩ := beg e1
    have := (stepLocked_total hs (({ w1 with locked := true } : World F).timeStep dt vi pi) timeStep_pos i1 b1).2 w2 e2
    exact this

end World

theorem call_between {env : Env F} (hs : env.Safe) {w w' : World F} (c : Call F) (h : HInv env w) (hb : Between w) (hok : c.Ok w) (e : c.run env w = some w') : Between w' := by
  cases c with
  | createBody d =>
    simp only [Call.run, Option.map_eq_some_iff] at e
    obtain ⟨⟨v, b⟩, e, rfl⟩ := e
    unfold createBody at e
    split at e
    · cases e
    simp only [Option.bind_eq_bind, Option.bind_eq_some_iff] at e
    obtain ⟨p, e1, e2⟩ := e
    cases e2
    have hp : p.island = false ∧ p.sweep.alpha0 = 0 := by
      unfold Phys.new at e1
      split at e1
      · cases e1; exact ⟨rfl, rfl⟩
      · cases e1
    intro hc
    obtain ⟨h1, h2⟩ := hb hc
    refine ⟨fun x hx => ?_, fun x hx => ?_⟩
    · show Phys.island (upd w.phys w.g.nextBody p x) = false
      by_cases hxn : x = w.g.nextBody
      · subst hxn; rw [upd_same]; exact hp.1
      · rw [upd_other _ _ hxn]
        exact h1 x ((List.mem_cons.mp hx).resolve_left hxn)
    · show (upd w.phys w.g.nextBody p x).sweep.alpha0 < 1
      by_cases hxn : x = w.g.nextBody
      · subst hxn; rw [upd_same, hp.2]; exact zero_lt_one
      · rw [upd_other _ _ hxn]
        exact h2 x ((List.mem_cons.mp hx).resolve_left hxn)
  | destroyBody b => exact (destroyBody_held e).between hb
  | createFixture b d =>
    simp only [Call.run, Option.map_eq_some_iff] at e
    obtain ⟨⟨v, f⟩, e, rfl⟩ := e
    exact (createFixture_held e).between hb
  | destroyFixture b f => exact (destroyFixture_held e).between hb
  | createJoint d =>
    simp only [Call.run, Option.map_eq_some_iff] at e
    obtain ⟨⟨v, j⟩, e, rfl⟩ := e
    unfold createJoint at e
    split at e
    · cases e
    split at e
    · cases e
    dsimp only at e
    cases e
    refine Held.between ?_ hb
    split
    · exact Held.after (flagContacts_held _ _ _) (by rfl) (by rfl) (fun _ => id)
    · exact .same (by rfl) (by rfl) (fun _ => id)
  | destroyJoint j => exact (destroyJoint_held e).between hb
  | setType b t => exact (setType_held e).between hb
  | setEnabled b flag => exact (setEnabled_held e).between hb
  | setTransform b p a =>
    simp only [Call.run] at e
    unfold setTransform at e
    split at e
    · cases e
    simp only [Option.bind_eq_bind, Option.bind_eq_some_iff] at e
    obtain ⟨w1, e1, e2⟩ := e
    cases e2
    refine Held.between (Held.before (w' := w1) ?_ (by rfl) (by rfl) (fun _ => id)) hb
    exact Held.trans (Held.setPhys (by rfl) (by rfl)) (Held.foldlM e1 (fun _ _ _ _ h => synchronize_held h))
  | setMassData b m =>
    obtain ⟨-, q, -⟩ := setMassData_spec (env := env) e
    exact (Held.quiet q).between hb
  | setFilterData f d =>
    simp only [Call.run] at e
    exact (Held.after (refilter_held e) (by rfl) (by rfl) (fun _ => id)).between hb
  | refilter f => exact (refilter_held e).between hb
  | user op => exact (Held.quiet (userOp_quiet e).1).between hb
  | setAllowSleeping flag =>
    cases e
    refine Held.between ?_ hb
    unfold setAllowSleeping
    split
    · exact .refl _
    dsimp only
    split
    · exact Held.after (Held.foldl _ (fun b _ v => setAwake_held v b true)) (by rfl) (by rfl) (fun _ => id)
    · exact .same (by rfl) (by rfl) (fun _ => id)
  | setGravity x => cases e; exact hb
  | setAutoClearForces x => cases e; exact hb
  | setWarmStarting x => cases e; exact hb
  | setContinuousPhysics x => cases e; exact hb
  | setSubStepping x => cases e; exact hb
  | clearForces => cases e; exact (Held.quiet (clearForcesAll_quiet w).1).between hb
  | shiftOrigin o =>
    simp only [Call.run] at e
    unfold shiftOrigin at e
    split at e
    · cases e
    dsimp only at e
    cases e
    exact (Held.before (Held.foldl w (fun b _ v => Held.setPhys (by rfl) (by rfl))) (by rfl) (by rfl) (fun _ => id)).between hb
  | step dt vi pi => exact (step_total hs dt vi pi h.toWInv hb).2 _ e

theorem whist_between {env : Env F} (hs : env.Safe) {w : World F} (h : WHist env w) : Between w := by
  induction h with
  | new => intro h; cases h
  | call c h hok e ih => exact call_between hs c (whist_inv h) ih hok e

end
end B2
