import Verif.Spec.World
import Verif.Spec.WorldMotion

/-! Running concrete histories, for the examples. -/
namespace B2
set_option linter.unusedSectionVars false
open Spec World

section
variable {F : Type} [Field F] [LinearOrder F] [IsStrictOrderedRing F] [Elem F]

instance (w : World F) (c : Call F) : Decidable (c.Ok w) := by
  cases c <;> unfold Call.Ok <;> infer_instance

/-- Runs the calls, checking the contract. -/
def runAll (env : Env F) : List (Call F) → World F → Option (World F)
  | [], w => some w
  | c :: cs, w => if c.Ok w then (c.run env w).bind (runAll env cs) else none

theorem runAll_hist {env : Env F} : ∀ (cs : List (Call F)) {w w' : World F}, WHist env w → runAll env cs w = some w' → WHist env w' := by
  intro cs
  induction cs with
  | nil => intro w w' h e; cases e; exact h
  | cons c cs ih =>
    intro w w' h e
    unfold runAll at e
    split at e
    · rename_i hok
      rw [Option.bind_eq_some_iff] at e
      obtain ⟨v, e1, e2⟩ := e
      exact ih (h.call c hok e1) e2
    · cases e

/-- The call touches neither sensor flags nor manifolds. -/
def gentle : Call F → Bool
  | .user (.contactSetManifold _ _) => false
  | .user (.fixtureSetSensor _ _) => false
  | _ => true

theorem gentle_tame {c : Call F} (h : gentle c = true) (w : World F) : Tame w c := by
  cases c with
  | user op => cases op <;> first | trivial | cases h
  | _ => trivial

theorem runAll_tame {env : Env F} : ∀ (cs : List (Call F)) {w w' : World F}, cs.all gentle = true → TameHist env w → runAll env cs w = some w' → TameHist env w' := by
  intro cs
  induction cs with
  | nil => intro w w' _ h e; cases e; exact h
  | cons c cs ih =>
    intro w w' hg h e
    rw [List.all_cons, Bool.and_eq_true] at hg
    unfold runAll at e
    split at e
    · rename_i hok
      rw [Option.bind_eq_some_iff] at e
      obtain ⟨v, e1, e2⟩ := e
      exact ih hg.2 (h.call c hok (gentle_tame hg.1 w) e1) e2
    · cases e

/-- The call creates no moving static body. -/
def tame : Call F → Bool
  | .createBody d => d.type != .static || (decide (d.linearVelocity = ⟨0, 0⟩) && decide (d.angularVelocity = 0))
  | _ => true

/-- Runs the calls, checking the contract and that sub-stepping is off. -/
def runPlain (env : Env F) : List (Call F) → World F → Option (World F)
  | [], w => some w
  | c :: cs, w => if c.Ok w ∧ w.subStepping = false ∧ tame c = true then (c.run env w).bind (runPlain env cs) else none

theorem runPlain_plain {env : Env F} : ∀ (cs : List (Call F)) {w w' : World F}, PlainHist env w → runPlain env cs w = some w' → PlainHist env w' := by
  intro cs
  induction cs with
  | nil => intro w w' h e; cases e; exact h
  | cons c cs ih =>
    intro w w' h e
    unfold runPlain at e
    split at e
    · rename_i hok
      rw [Option.bind_eq_some_iff] at e
      obtain ⟨v, e1, e2⟩ := e
      refine ih (h.call c hok.1 (fun _ _ _ _ => hok.2.1) (fun d hd ht => ?_) e1) e2
      have := hok.2.2
      subst hd
      simp only [tame] at this
      rw [ht] at this
      simpa using this
    · cases e
end

/-- Any choice of the elementary functions will do. -/
@[reducible] def exElem : Elem ℚ := ⟨fun x => x, fun _ => 0, fun _ => 1, fun x => x, 3⟩
attribute [local instance] exElem

namespace Ex

/-- Shapes in contact always touch in one point; nobody moves anybody. -/
def env : Env ℚ where
  listener := true
  destruction := true
  react := fun _ _ => []
  filter := none
  evaluate := fun _ _ => some ⟨[⟨⟨0, 0⟩, 0, 0, ⟨⟨0, 0, 0, 0⟩⟩⟩], ⟨1, 0⟩, ⟨0, 0⟩, .circles⟩
  overlap := fun _ _ => some true
  toi := fun _ _ => some (false, 1)
  solvable := fun _ _ _ => true
  toiSolvable := fun _ _ _ => true
  solveVel := fun _ _ _ l i => match l[i]? with | some s => (s.v, s.w) | none => (⟨0, 0⟩, 0)
  impulses := fun _ _ _ _ => []
  solvePos := fun _ _ _ l => (fun i => match l[i]? with | some s => (s.c, s.a) | none => (⟨0, 0⟩, 0), true)
  toiPos := fun w isl _ i => match isl.bodies[i]? with | some b => ((w.phys b).sweep.c, (w.phys b).sweep.a) | none => (⟨0, 0⟩, 0)
  toiVel := fun _ _ _ l i => match l[i]? with | some s => (s.v, s.w) | none => (⟨0, 0⟩, 0)

def body (t : BodyType) (x y : ℚ) : BodyDef ℚ := ⟨t, ⟨x, y⟩, 0, ⟨0, 0⟩, 0, 0, 0, true, true, false, false, true, 1⟩
def ball : FixDef ℚ := ⟨.circle ⟨1, ⟨0, 0⟩⟩, ⟨1, 1, 0, 1, false, ⟨1, 0xFFFF, 0⟩⟩⟩
def w0 : World ℚ := World.new ⟨0, -10⟩ ⟨false, false, false, false, false, 0, ⟨⟨0, 0⟩, ⟨0, 0⟩⟩, ⟨⟨0, 0⟩, ⟨0, 0⟩, ⟨0, 0⟩, 0, 0, 0⟩, ⟨0, 0⟩, 0, ⟨0, 0⟩, 0, 0, 0, 0, 0, 0, 0, 0, 0⟩
  (.circle ⟨0, ⟨0, 0⟩⟩) ⟨0, 0, 0, 0, false, ⟨0, 0, 0⟩⟩ ⟨false, false, false, false, false, ⟨[], ⟨0, 0⟩, ⟨0, 0⟩, .circles⟩, 0, 0, 0, 0, 0, 0⟩ ⟨⟨0, 0⟩, ⟨0, 0⟩⟩

theorem w0_hist : WHist env w0 := .new ..
theorem w0_tame : TameHist env w0 := .new ..

/-- A falling ball on a fixed one, and a third ball joined to the first, after one step: two contacts touch. -/
def calls : List (Call ℚ) :=
  [.createBody (body .dynamic 0 1), .createFixture 0 ball, .createBody (body .static 0 0), .createFixture 1 ball,
   .createBody (body .dynamic 1 0), .createFixture 2 ball, .createJoint ⟨0, 2, false⟩, .step (1/60) 8 3]

/-- The world after these calls. -/
def w1 : World ℚ := (runAll env calls w0).get (by decide +kernel)
theorem w1_hist : WHist env w1 := runAll_hist calls w0_hist (by rw [w1, Option.some_get])
theorem w1_tame : TameHist env w1 := runAll_tame calls (by decide +kernel) w0_tame (by rw [w1, Option.some_get])

end Ex
end B2
