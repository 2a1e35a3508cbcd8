import Verif.Proofs.Memory
import Verif.Proofs.WorldGood

/-! A step only uses its solvers with the time step it was given. -/
set_option linter.unusedSectionVars false
namespace B2
open Spec
section
variable {F : Type} [Field F] [LinearOrder F] [IsStrictOrderedRing F] [Elem F]

/-- The environment with the solvers of another. -/
def swap (env n : Env F) : Env F :=
  { env with solvable := n.solvable, solveVel := n.solveVel, solvePos := n.solvePos, toiSolvable := n.toiSolvable, toiPos := n.toiPos, toiVel := n.toiVel }

/-- Without warm starting the solvers of the two for impacts give the same. -/
structure SolveToiAlike (env n : Env F) : Prop where
  toiSolvable : ∀ w isl s, s.warmStarting = false → n.toiSolvable w isl s = env.toiSolvable w isl s
  toiPos : ∀ w isl s, s.warmStarting = false → n.toiPos w isl s = env.toiPos w isl s
  toiVel : ∀ w isl s, s.warmStarting = false → n.toiVel w isl s = env.toiVel w isl s

/-- Without warm starting the solvers of the two give the same. -/
structure SolveAlike (env n : Env F) : Prop extends SolveToiAlike env n where
  solvable : ∀ w isl s, s.warmStarting = false → n.solvable w isl s = env.solvable w isl s
  solveVel : ∀ w isl s, s.warmStarting = false → n.solveVel w isl s = env.solveVel w isl s
  solvePos : ∀ w isl s, s.warmStarting = false → n.solvePos w isl s = env.solvePos w isl s

namespace World
variable {env n : Env F}

theorem listen_swap : (listen (swap env n) : World F → _) = listen env := rfl
theorem filterCollide_swap : (filterCollide (swap env n) : World F → _) = filterCollide env := rfl
theorem contactDestroy_swap : (contactDestroy (swap env n) : World F → _) = contactDestroy env := rfl
theorem refresh_swap : (refresh (swap env n) : World F → _) = refresh env := rfl
theorem contactUpdate_swap : (contactUpdate (swap env n) : World F → _) = contactUpdate env := rfl
theorem collideActive_swap : (collideActive (swap env n) : World F → _) = collideActive env := rfl
theorem collideOne_swap : (collideOne (swap env n) : World F → _) = collideOne env := rfl
theorem collideLoop_swap : ∀ (l : List Nat) (w : World F) (d : List Nat), collideLoop (swap env n) l w d = collideLoop env l w d := by
  intro l
  induction l with
  | nil => intro w d; rfl
  | cons c l ih => intro w d; simp only [collideLoop, collideOne_swap, ih]
theorem collide_swap : (collide (swap env n) : World F → _) = collide env := by
  funext w; simp only [collide, collideLoop_swap, contactDestroy_swap]
theorem addPair_swap : (addPair (swap env n) : World F → _) = addPair env := rfl
theorem findNewContacts_swap : (findNewContacts (swap env n) : World F → _) = findNewContacts env := by
  funext w; simp only [findNewContacts, addPair_swap]
theorem report_swap : (report (swap env n) : World F → _) = report env := by
  funext w l; simp only [report, listen_swap]

theorem islandMove_swap (h : SolveAlike env n) {w : World F} {cap : Nat} {isl : Island} {step : TimeStep F} (hs : step.warmStarting = false) :
    w.islandMove (swap env n) cap isl step = w.islandMove env cap isl step := by
  unfold islandMove
  have e1 : (swap env n).solvable w isl step = env.solvable w isl step := h.solvable w isl step hs
  have e2 : ∀ v, (swap env n).solveVel v isl step = env.solveVel v isl step := fun v => h.solveVel v isl step hs
  have e3 : ∀ v, (swap env n).solvePos v isl step = env.solvePos v isl step := fun v => h.solvePos v isl step hs
  have e4 : (swap env n).impulses = env.impulses := rfl
  simp only [e1, e2, e3, e4, report_swap]

theorem solveSeed_swap (h : SolveAlike env n) {step : TimeStep F} (hs : step.warmStarting = false) : solveSeed (swap env n) step = solveSeed env step := by
  funext x seed
  simp only [solveSeed, islandSolve, islandMove_swap h hs]

theorem solve_swap (h : SolveAlike env n) {step : TimeStep F} (hs : step.warmStarting = false) (w : World F) : w.solve (swap env n) step = w.solve env step := by
  simp only [solve, solveIslands, solveSeed_swap h hs, findNewContacts_swap]

theorem toiOf_swap : (toiOf (swap env n) : World F → _) = toiOf env := rfl
theorem toiScan_swap : ∀ (l : List Nat) (w : World F) (o : Option Nat) (m : F), toiScan (swap env n) l w o m = toiScan env l w o m := by
  intro l
  induction l with
  | nil => intro w o m; rfl
  | cons c l ih => intro w o m; simp only [toiScan, toiOf_swap, ih]
theorem toiVisit_swap : (toiVisit (swap env n) : F → _) = toiVisit env := rfl
theorem toiVisits_swap : (toiVisits (swap env n) : F → _) = toiVisits env := by
  funext a x b; simp only [toiVisits, toiVisit_swap]
theorem toiIsland_swap : (toiIsland (swap env n) : World F → _) = toiIsland env := by
  funext w c a b al; simp only [toiIsland, toiVisits_swap]

theorem islandSolveToi_swap (h : SolveToiAlike env n) {w : World F} {cap : Nat} {isl : Island} {step : TimeStep F} {iA iB : Int} (hs : step.warmStarting = false) :
    w.islandSolveToi (swap env n) cap isl step iA iB = w.islandSolveToi env cap isl step iA iB := by
  unfold islandSolveToi
  have e1 : (swap env n).toiSolvable w isl step = env.toiSolvable w isl step := h.toiSolvable w isl step hs
  have e2 : ∀ v, (swap env n).toiPos v isl step = env.toiPos v isl step := fun v => h.toiPos v isl step hs
  have e3 : ∀ v, (swap env n).toiVel v isl step = env.toiVel v isl step := fun v => h.toiVel v isl step hs
  simp only [e1, e2, e3, report_swap]

theorem toiSolid_swap (h : SolveToiAlike env n) (step : TimeStep F) (w : World F) (c bA bB : Nat) (al : F) : w.toiSolid (swap env n) step c bA bB al = w.toiSolid env step c bA bB al := by
  unfold toiSolid
  simp only [toiIsland_swap, findNewContacts_swap, islandSolveToi_swap h]

theorem toiEvent_swap (h : SolveToiAlike env n) (step : TimeStep F) (w : World F) (c : Nat) (al : F) : w.toiEvent (swap env n) step c al = w.toiEvent env step c al := by
  simp only [toiEvent, contactUpdate_swap, toiSolid_swap h]

theorem toiLoop_swap (h : SolveToiAlike env n) (step : TimeStep F) : ∀ (k : Nat) (w : World F), toiLoop (swap env n) step k w = toiLoop env step k w := by
  intro k
  induction k with
  | zero => intro w; rfl
  | succ k ih => intro w; simp only [toiLoop, toiScan_swap, toiEvent_swap h, ih]

theorem step_swap (h : SolveAlike env n) {w : World F} (hw : WInv w) (hs : w.warmStarting = false) (dt : F) (vi pi : Nat) : w.step (swap env n) dt vi pi = w.step env dt vi pi := by
  unfold step
  have e1 : w.stepBegin (swap env n) = w.stepBegin env := by simp only [stepBegin, findNewContacts_swap]
  rw [e1]
  refine Option.bind_congr (fun v hv => ?_)
  have hk : v.warmStarting = false := by
    unfold stepBegin at hv
    split at hv
    · simp only [Option.bind_eq_bind, Option.bind_eq_some_iff] at hv
      obtain ⟨u, e, hv⟩ := hv
      cases hv
      exact ((findNewContacts_good hw e).rest.warmStarting).trans hs
    · cases hv; exact hs
  have ht : ((({ v with locked := true } : World F)).timeStep dt vi pi).warmStarting = false := hk
  dsimp only
  generalize (({ v with locked := true } : World F)).timeStep dt vi pi = st at ht
  simp only [stepLocked, collide_swap, solve_swap h ht, solveToi, toiLoop_swap h.toSolveToiAlike]

end World

theorem forgetWorld_twice (w : World F) : forgetWorld (forgetWorld w) = forgetWorld w := by
  unfold forgetWorld forgetManifold
  simp only [List.map_map, Function.comp_def]

theorem forgetJoint_twice (j : Joint F) : forgetJoint (forgetJoint j) = forgetJoint j := by cases j <;> rfl
theorem forgetJoint_idle (j : Joint F) : LimitsIdle (forgetJoint j) := by
  cases j <;> first | trivial | exact ⟨rfl, rfl⟩

section
variable {E E' : Engine F} {w w' : World F} {isl : Island} {step : TimeStep F} {ratio : F}

theorem island_same (hb : E'.block = E.block) (cold : step.warmStarting = false) (hw : forgetWorld w = forgetWorld w')
    (idle : ∀ j ∈ isl.joints, LimitsIdle (E.joint w j)) (idle' : ∀ j ∈ isl.joints, LimitsIdle (E'.joint w' j))
    (he : ∀ j ∈ isl.joints, forgetJoint (E.joint w j) = forgetJoint (E'.joint w' j)) :
    E.env.solvable w isl step = E'.env.solvable w' isl { step with dtRatio := ratio } ∧ E.env.solveVel w isl step = E'.env.solveVel w' isl { step with dtRatio := ratio } ∧
    E.env.solvePos w isl step = E'.env.solvePos w' isl { step with dtRatio := ratio } := by
  have v := velocity_same (E' := E') (r := ratio) hb cold hw idle idle' he
  have p := position_same (E' := E') (r := ratio) hb cold hw idle idle' he
  have b := begin_same (isl := isl) (step := step) (r := ratio) hw
  refine ⟨?_, funext fun s => ?_, funext fun s => ?_⟩
  · change ((E.velocity w isl step _).bind fun r => E.position w isl step (Engine.moved w isl step r.2.1)).isSome = ((E'.velocity w' isl _ _).bind fun r => E'.position w' isl _ (Engine.moved w' isl _ r.2.1)).isSome
    have split : ∀ {γ : Type} (x : Option (List (Joint F) × Arr (Vel F) × List (Manifold F))) (g : Arr (Vel F) → Option γ), (x.bind fun r => g r.2.1) = (x.map outcome).bind fun q => g q.2 := by
      intro γ x g; cases x <;> rfl
    have m : ∀ a, Engine.moved w isl step a = Engine.moved w' isl { step with dtRatio := ratio } a := by intro a; unfold Engine.moved; rw [b]
    rw [split (E.velocity w isl step _) (fun a => E.position w isl step (Engine.moved w isl step a)), v, b,
      split _ (fun a => E'.position w' isl { step with dtRatio := ratio } (Engine.moved w' isl { step with dtRatio := ratio } a))]
    simp only [m, p]
  · have k := v s
    change (match E.velocity w isl step s with | some r => _ | none => _) = (match E'.velocity w' isl { step with dtRatio := ratio } s with | some r => _ | none => _)
    generalize E.velocity w isl step s = x at k
    generalize E'.velocity w' isl { step with dtRatio := ratio } s = y at k
    cases x with
    | none => cases y with
      | none => rfl
      | some y => cases k
    | some x => cases y with
      | none => cases k
      | some y =>
        have : x.2.1 = y.2.1 := congrArg Prod.snd (Option.some.inj k)
        dsimp only
        rw [this]
  · change (match E.position w isl step s with | some r => _ | none => _) = (match E'.position w' isl { step with dtRatio := ratio } s with | some r => _ | none => _)
    rw [p s]

theorem toiIsland_same (hb : E'.block = E.block) (cold : step.warmStarting = false) (hw : forgetWorld w = forgetWorld w') :
    E.env.toiSolvable w isl step = E'.env.toiSolvable w' isl { step with dtRatio := ratio } ∧ E.env.toiPos w isl step = E'.env.toiPos w' isl { step with dtRatio := ratio } ∧
    E.env.toiVel w isl step = E'.env.toiVel w' isl { step with dtRatio := ratio } := by
  have b : Engine.toiBegin w isl = Engine.toiBegin w' isl := by
    rw [show Engine.toiBegin w isl = Engine.toiBegin (forgetWorld w) isl from rfl, show Engine.toiBegin w' isl = Engine.toiBegin (forgetWorld w') isl from rfl, hw]
  refine ⟨?_, ?_, ?_⟩
  · change ((E.toiPosition w isl step).bind fun pos => E.toiVelocity w isl step (Engine.leapt w isl pos)).isSome =
      ((E'.toiPosition w' isl { step with dtRatio := ratio }).bind fun pos => E'.toiVelocity w' isl { step with dtRatio := ratio } (Engine.leapt w' isl pos)).isSome
    rw [toiPosition_same (E := E) (E' := E') (r := ratio) cold hw]
    have m : ∀ a, Engine.leapt w isl a = Engine.leapt w' isl a := by intro a; unfold Engine.leapt; rw [b]
    simp only [m, toiVelocity_same (E := E) (E' := E') (r := ratio) hb cold hw]
  · change (match E.toiPosition w isl step with | some r => _ | none => _) = (match E'.toiPosition w' isl { step with dtRatio := ratio } with | some r => _ | none => _)
    rw [toiPosition_same (E := E) (E' := E') (r := ratio) cold hw, b]
  · funext s
    change (match E.toiVelocity w isl step s with | some r => _ | none => _) = (match E'.toiVelocity w' isl { step with dtRatio := ratio } s with | some r => _ | none => _)
    rw [toiVelocity_same (E := E) (E' := E') (r := ratio) hb cold hw]
end

theorem amnesic_toi (E : Engine F) : SolveToiAlike E.env (amnesic E) :=
  ⟨fun w isl s h => (toiIsland_same (E := E) (E' := { E with joint := fun _ j => forgetJoint (E.joint w j) }) (w' := forgetWorld w) (isl := isl) (ratio := 0) rfl h (forgetWorld_twice w).symm).1.symm,
   fun w isl s h => (toiIsland_same (E := E) (E' := { E with joint := fun _ j => forgetJoint (E.joint w j) }) (w' := forgetWorld w) (isl := isl) (ratio := 0) rfl h (forgetWorld_twice w).symm).2.1.symm,
   fun w isl s h => (toiIsland_same (E := E) (E' := { E with joint := fun _ j => forgetJoint (E.joint w j) }) (w' := forgetWorld w) (isl := isl) (ratio := 0) rfl h (forgetWorld_twice w).symm).2.2.symm⟩

theorem amnesic_alike (E : Engine F) (hl : ∀ w j, LimitsIdle (E.joint w j)) : SolveAlike E.env (amnesic E) := by
  have k : ∀ (w : World F) (isl : Island) (s : TimeStep F), s.warmStarting = false → _ := fun w isl s h =>
    island_same (E := E) (E' := { E with joint := fun _ j => forgetJoint (E.joint w j) }) (w := w) (w' := forgetWorld w) (isl := isl) (step := s) (ratio := 0) rfl h (forgetWorld_twice w).symm
      (fun j _ => hl w j) (fun j _ => forgetJoint_idle _) (fun j _ => (forgetJoint_twice _).symm)
  exact ⟨amnesic_toi E, fun w isl s h => (k w isl s h).1.symm, fun w isl s h => (k w isl s h).2.1.symm, fun w isl s h => (k w isl s h).2.2.symm⟩

end
end B2
