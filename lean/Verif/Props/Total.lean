import Verif.Proofs.WorldPointsHist
import Verif.Proofs.WorldBody
import Verif.Proofs.WorldExample

/-! Stepping does not panic (C63), the one way it does in a world of more than 64 bodies (C42), and the ways it does after
`set_sensor` (C109). -/
namespace B2.Props
set_option linter.unusedSectionVars false
open Spec World

section
variable {F : Type} [Field F] [LinearOrder F] [IsStrictOrderedRing F] [Elem F]

theorem edgesFixed_meetable {w : World F} (h : BodyInv w.g) (hr : EdgesFixed w) : Meetable w.g := by
  intro f k x y hf hk hx hy hne hd
  have key : ∀ f x, (w.g.fixtures f).body = some x → x ∈ w.g.bodyList → (w.g.bodies x).type = .dynamic →
      (w.g.fixtures f).shape.type = .circle ∨ (w.g.fixtures f).shape.type = .polygon := by
    intro f x hf hx hd
    exact hr x hx hd f ((h.fixtures x f).mpr ⟨hx, hf⟩)
  rcases hd with hd | hd
  · rcases key f x hf hx hd with e | e <;> rw [e] <;> cases (w.g.fixtures k).shape.type <;> exact ⟨_, rfl⟩
  · rcases key k y hk hy hd with e | e <;> rw [e] <;> cases (w.g.fixtures f).shape.type <;> exact ⟨_, rfl⟩

/-- C63: a step of a reachable world does not panic, whatever the time step, the iteration counts, and the outcome of the
narrow phase and of the solvers, if edges and chains are on static or kinematic bodies, there are at most 64 bodies, nobody takes the points
of a contact away by hand or switches a fixture between sensor and solid other than as `Tame` allows, and no post-solve callback enables or
disables contacts. The callbacks, the narrow phase and the solvers are arbitrary functions in `env` that do not panic themselves; the last two
are only asked about contacts and islands in good order (`ContactFit`, `Fitted`), if the shapes are fine. -/
theorem c63_step {env : Env F} {w : World F} (h : TameHist env w) (hs : CallbacksSafe env) (ht : CallbacksTame env) (hl : PostSolveLinks env)
    (hN : NarrowRuns env) (hR : SolversRun env) (he : EdgesFixed w) (hf : ShapesFine w) (hn : w.g.bodyList.length ≤ 64)
    (dt : F) (vi pi : Nat) : ∃ w', w.step env dt vi pi = some w' :=
  (step_total hs dt vi pi (whist_inv (tame_whist h)).toWInv (whist_between hs (tame_whist h))).1 ⟨ht, hl, hN, hR⟩ (tame_pts ht hR.impulses h)
    ⟨edgesFixed_meetable (whist_inv (tame_whist h)).body he, hn, fun b hb => ⟨_, (whist_stable consistent_stable (tame_whist h) b hb).rotation⟩, hf⟩

/-- C42, as far as it holds: in a world of at most 64 bodies no step reads or writes the buffers of the continuous solver
out of range; an access out of range is a panic (`islandSolveToi` is `none`) and there is none. The full claim, for any
number of bodies, is false: `c42_false`. -/
theorem c42_partial {env : Env F} {w : World F} (h : TameHist env w) (hs : CallbacksSafe env) (ht : CallbacksTame env) (hl : PostSolveLinks env)
    (hN : NarrowRuns env) (hR : SolversRun env) (he : EdgesFixed w) (hf : ShapesFine w) (hn : w.g.bodyList.length ≤ 64)
    (dt : F) (vi pi : Nat) : w.step env dt vi pi ≠ none := by
  obtain ⟨w', e⟩ := c63_step h hs ht hl hN hR he hf hn dt vi pi
  rw [e]
  exact Option.some_ne_none _

end

section
attribute [local instance] exElem

theorem safe_quiet (env : Env ℚ) (h : ∀ w k, env.react w k = []) : CallbacksSafe env := by
  intro w k
  rw [h]
  exact ⟨w, rfl⟩

theorem tame_quiet (env : Env ℚ) (h : ∀ w k, env.react w k = []) : CallbacksTame env := by
  intro w k op hop
  rw [h] at hop
  cases hop

theorem links_quiet (env : Env ℚ) (h : ∀ w k, env.react w k = []) : PostSolveLinks env := by
  intro w w' c e
  unfold listen emit at e
  dsimp only at e
  rw [h] at e
  split at e
  · cases e; exact ⟨fun _ => rfl, fun _ => rfl⟩
  · cases e; exact ⟨fun _ => rfl, fun _ => rfl⟩

/-- All fixtures are circles. -/
def AllDiscs (w : World ℚ) : Prop := ∀ b ∈ w.g.bodyList, ∀ f ∈ (w.g.bodies b).fixtures,
  match (w.g.fixtures f).shape with | .circle c => 0 ≤ c.radius | _ => False

instance (w : World ℚ) : Decidable (AllDiscs w) := by
  unfold AllDiscs
  have : ∀ f, Decidable (match (w.g.fixtures f).shape with | .circle c => 0 ≤ c.radius | _ => False) := fun f => by split <;> infer_instance
  infer_instance

theorem AllDiscs.fine {w : World ℚ} (h : AllDiscs w) : ShapesFine w := by
  intro b hb f hf n _ i _
  have := h b hb f hf
  split at this
  · rename_i c hc
    rw [hc]
    refine ⟨this, fun x hx y hy => ?_⟩
    simp only [childPoints, List.mem_singleton] at hx hy
    rw [hx, hy]
    norm_num [dist2, maxFlt]
  · exact this.elim

theorem AllDiscs.edges {w : World ℚ} (h : AllDiscs w) : EdgesFixed w := by
  intro b hb _ f hf
  have := h b hb f hf
  split at this
  · rename_i c hc
    rw [hc]; exact .inl rfl
  · exact this.elim

theorem ex_narrow : NarrowRuns Ex.env := ⟨fun _ _ _ => ⟨_, rfl, by decide +kernel⟩, fun _ _ _ => ⟨_, rfl⟩, fun _ _ _ => ⟨_, rfl⟩⟩
theorem ex_solvers : SolversRun Ex.env := ⟨fun _ _ _ _ _ _ _ => rfl, fun _ _ _ _ _ _ _ => rfl, fun _ _ _ _ _ _ _ h => by cases h⟩

/-- A world with a static and a dynamic ball meets the hypotheses of C63 and C42. -/
example : TameHist Ex.env Ex.w1 ∧ CallbacksSafe Ex.env ∧ CallbacksTame Ex.env ∧ PostSolveLinks Ex.env ∧ NarrowRuns Ex.env ∧ SolversRun Ex.env ∧ EdgesFixed Ex.w1 ∧ ShapesFine Ex.w1 ∧ Ex.w1.g.bodyList.length ≤ 64 ∧ Ex.w1.g.bodyList.length ≠ 0 :=
  ⟨Ex.w1_tame, safe_quiet _ fun _ _ => rfl, tame_quiet _ fun _ _ => rfl, links_quiet _ fun _ _ => rfl, ex_narrow, ex_solvers, by unfold EdgesFixed; decide +kernel,
    AllDiscs.fine (by decide +kernel), by decide +kernel, by decide +kernel⟩

namespace Overrun
/-- A narrow phase that has every pair touch, half way through the step. -/
def env : Env ℚ := { Ex.env with
  toi := fun _ _ => some (true, 1 / 2)
  evaluate := fun _ _ => some ⟨[⟨⟨0, 0⟩, 0, 0, ⟨⟨0, 0, 0, 0⟩⟩⟩], ⟨0, 0⟩, ⟨0, 0⟩, .circles⟩ }
def big : FixDef ℚ := { Ex.ball with shape := .circle ⟨1000, ⟨0, 0⟩⟩ }
/-- One large dynamic ball, stepped once with a small static one, and then `n` more of those inside it. -/
def calls (n : Nat) : List (Call ℚ) :=
  [.setGravity ⟨0, 0⟩, .setSubStepping true, .createBody (Ex.body .dynamic 0 0), .createFixture 0 big,
    .createBody (Ex.body .static 0 0), .createFixture 1 Ex.ball, .step (1 / 4) 8 3] ++
  (List.range n).flatMap fun i => [.createBody (Ex.body .static (8 * ((i : ℚ) + 1)) 0), .createFixture (i + 2) Ex.ball]
def check (n : Nat) : Bool := match runAll env (calls n) Ex.w0 with
  | some w => decide (w.g.bodyList.length = n + 2) && decide (AllDiscs w) &&
      (w.step env (1 / 4) 8 3).isNone
  | none => false
set_option maxRecDepth 100000 in
theorem check63 : check 63 = true := by decide +kernel
set_option maxRecDepth 100000 in
theorem gentle63 : (calls 63).all gentle = true := by decide +kernel
end Overrun

/-- C42 is false of the code: there is a history of correct calls, without any action in callbacks and with circles only, that
leads to a world of 65 bodies in which a step accesses the buffers of the continuous solver out of range. -/
theorem c42_false : ∃ (env : Env ℚ) (w : World ℚ) (dt : ℚ) (vi pi : Nat), TameHist env w ∧ CallbacksSafe env ∧ CallbacksTame env ∧ PostSolveLinks env ∧ NarrowRuns env ∧ SolversRun env ∧
    EdgesFixed w ∧ ShapesFine w ∧ w.g.bodyList.length = 65 ∧ w.step env dt vi pi = none := by
  have h := Overrun.check63
  unfold Overrun.check at h
  split at h
  · rename_i w e
    simp only [Bool.and_eq_true, decide_eq_true_eq, Option.isNone_iff_eq_none] at h
    exact ⟨Overrun.env, w, 1 / 4, 8, 3, runAll_tame _ Overrun.gentle63 (.new ..) e, safe_quiet _ fun _ _ => rfl, tame_quiet _ fun _ _ => rfl,
      links_quiet _ fun _ _ => rfl, ⟨fun _ _ _ => ⟨_, rfl, by decide +kernel⟩, fun _ _ _ => ⟨_, rfl⟩, fun _ _ _ => ⟨_, rfl⟩⟩, ⟨fun _ _ _ _ _ _ _ => rfl, fun _ _ _ _ _ _ _ => rfl, fun _ _ _ _ _ _ _ h => by cases h⟩, AllDiscs.edges h.1.2, AllDiscs.fine h.1.2, h.1.1, h.2⟩
  · exact absurd h (by decide)

/-! ## C109 -/

namespace Switch
def sensor : FixDef ℚ := { Ex.ball with attr := { Ex.ball.attr with sensor := true } }
/-- A sensor on a static body, a sleeping ball that touches it, and a ball that is awake and joined to the sleeping one. -/
def calls : List (Call ℚ) :=
  [.createBody (Ex.body .static 0 0), .createFixture 0 sensor, .createBody (Ex.body .dynamic 1 0), .createFixture 1 Ex.ball,
   .createBody (Ex.body .dynamic 9 0), .createFixture 2 Ex.ball, .createJoint ⟨1, 2, false⟩, .step (1 / 60) 8 3, .user (.body 1 (.setAwake false))]
def before : World ℚ := (runAll Ex.env calls Ex.w0).get (by decide +kernel)
def after : World ℚ := (before.setSensor 0 false).get (by decide +kernel)
/-- Two balls one of which will be reached in half of the step, and a step that is cut short there. -/
def env : Env ℚ := { Ex.env with toi := fun _ c => some (if c = 0 then (true, 1 / 2) else (true, 3 / 4)) }
def calls2 : List (Call ℚ) :=
  [.setSubStepping true, .createBody (Ex.body .static 0 0), .createFixture 0 Ex.ball, .createBody (Ex.body .dynamic 1 0), .createFixture 1 Ex.ball,
   .createBody (Ex.body .static 40 0), .createFixture 2 Ex.ball, .createBody (Ex.body .dynamic 41 0), .createFixture 3 Ex.ball, .step (1 / 60) 8 3]
def before2 : World ℚ := (runAll env calls2 Ex.w0).get (by decide +kernel)
def after2 : World ℚ := (before2.setSensor 3 true).get (by decide +kernel)
end Switch

/-- C109 is false of the code: after `set_sensor(false)` on a fixture of a static body, a step panics. All calls before were tame, and
without the call of `set_sensor` the step does not panic. -/
theorem c109_false : ∃ (env : Env ℚ) (w w' : World ℚ) (f : Nat) (dt : ℚ) (vi pi : Nat), TameHist env w ∧ CallbacksSafe env ∧ CallbacksTame env ∧ PostSolveLinks env ∧
    NarrowRuns env ∧ SolversRun env ∧ EdgesFixed w' ∧ ShapesFine w' ∧ w'.g.bodyList.length ≤ 64 ∧ w.setSensor f false = some w' ∧ w.step env dt vi pi ≠ none ∧ w'.step env dt vi pi = none :=
  ⟨Ex.env, Switch.before, Switch.after, 0, 1 / 60, 8, 3,
    runAll_tame Switch.calls (by decide +kernel) Ex.w0_tame (by rw [Switch.before, Option.some_get]), safe_quiet _ fun _ _ => rfl, tame_quiet _ fun _ _ => rfl,
    links_quiet _ fun _ _ => rfl, ex_narrow, ex_solvers, AllDiscs.edges (by decide +kernel), AllDiscs.fine (by decide +kernel), by decide +kernel, by rw [Switch.after, Option.some_get], by
      rw [ne_eq, ← Option.isNone_iff_eq_none]; decide +kernel, by rw [← Option.isNone_iff_eq_none]; decide +kernel⟩

/-- It is also false for `set_sensor(true)`, between the parts of a step with sub-stepping. -/
theorem c109_sub_false : ∃ (env : Env ℚ) (w w' : World ℚ) (f : Nat) (dt : ℚ) (vi pi : Nat), TameHist env w ∧ CallbacksSafe env ∧ CallbacksTame env ∧ PostSolveLinks env ∧
    NarrowRuns env ∧ SolversRun env ∧ EdgesFixed w' ∧ ShapesFine w' ∧ w'.g.bodyList.length ≤ 64 ∧ w.setSensor f true = some w' ∧ w.step env dt vi pi ≠ none ∧ w'.step env dt vi pi = none :=
  ⟨Switch.env, Switch.before2, Switch.after2, 3, 1 / 60, 8, 3,
    runAll_tame Switch.calls2 (by decide +kernel) (.new ..) (by rw [Switch.before2, Option.some_get]; rfl), safe_quiet _ fun _ _ => rfl, tame_quiet _ fun _ _ => rfl,
    links_quiet _ fun _ _ => rfl, ⟨ex_narrow.evaluate, ex_narrow.overlap, fun _ _ _ => ⟨_, rfl⟩⟩, ⟨fun _ _ _ _ _ _ _ => rfl, fun _ _ _ _ _ _ _ => rfl, fun _ _ _ _ _ _ _ h => by cases h⟩, AllDiscs.edges (by decide +kernel), AllDiscs.fine (by decide +kernel),
    by decide +kernel, by rw [Switch.after2, Option.some_get], by
      rw [ne_eq, ← Option.isNone_iff_eq_none]; decide +kernel, by rw [← Option.isNone_iff_eq_none]; decide +kernel⟩

/-- C109, as far as it holds: after `set_sensor` on a fixture that no contact has, and after `set_sensor(true)` when the last step was
completed, a step does not panic. Missing: `set_sensor(false)` on a fixture with contacts (`c109_false`), and `set_sensor(true)` on one
between the parts of a step (`c109_sub_false`). -/
theorem c109_partial {F : Type} [Field F] [LinearOrder F] [IsStrictOrderedRing F] [Elem F] {env : Env F} {w w' : World F} (h : TameHist env w) (hs : CallbacksSafe env)
    (ht : CallbacksTame env) (hl : PostSolveLinks env) (hN : NarrowRuns env) (hR : SolversRun env) (he : EdgesFixed w) (hF : ShapesFine w)
    (hn : w.g.bodyList.length ≤ 64) {f : Nat} {flag : Bool}
    (hf : (∀ c ∈ w.g.contactList, (w.g.contacts c).fA ≠ f ∧ (w.g.contacts c).fB ≠ f) ∨ (flag = true ∧ w.stepComplete = true))
    (e : w.setSensor f flag = some w') (dt : F) (vi pi : Nat) : ∃ w'', w'.step env dt vi pi = some w'' := by
  have h' : TameHist env w' := h.call (.user (.fixtureSetSensor f flag)) trivial (.inr hf) e
  have hg : w'.g = w.g := by
    unfold setSensor at e
    split at e
    · simp only [Option.bind_eq_bind, Option.bind_eq_some_iff] at e
      obtain ⟨b, -, e⟩ := e
      cases e; rfl
    · cases e; rfl
  exact c63_step h' hs ht hl hN hR (by unfold EdgesFixed; rw [hg]; exact he) (by unfold ShapesFine; rw [hg]; exact hF) (by rw [hg]; exact hn) dt vi pi

/-- A touching ball is made a sensor. -/
example : TameHist Ex.env Ex.w1 ∧ CallbacksSafe Ex.env ∧ CallbacksTame Ex.env ∧ PostSolveLinks Ex.env ∧ NarrowRuns Ex.env ∧ SolversRun Ex.env ∧ EdgesFixed Ex.w1 ∧ ShapesFine Ex.w1 ∧ Ex.w1.g.bodyList.length ≤ 64 ∧
    Ex.w1.stepComplete = true ∧ (Ex.w1.setSensor 0 true).isSome ∧ (∃ c ∈ Ex.w1.g.contactList, (Ex.w1.g.contacts c).fA = 0 ∧ (Ex.w1.cst c).touching = true) :=
  ⟨Ex.w1_tame, safe_quiet _ fun _ _ => rfl, tame_quiet _ fun _ _ => rfl, links_quiet _ fun _ _ => rfl, ex_narrow, ex_solvers, by unfold EdgesFixed; decide +kernel,
    AllDiscs.fine (by decide +kernel), by decide +kernel, by decide +kernel,
    by decide +kernel, by decide +kernel⟩

end
end B2.Props
