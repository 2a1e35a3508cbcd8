import Verif.Spec.Memory
import Verif.Proofs.EngineSolve

/-! Without warm starting the solver starts afresh. -/
set_option linter.unusedSectionVars false
namespace B2
open Spec
section
variable {F : Type} [Field F] [LinearOrder F] [IsStrictOrderedRing F] [Elem F]

/-- The step without its ratio. -/
def JStep.anew (st : JStep F) : JStep F := { st with dtRatio := 0 }

theorem initVel_forget {st : JStep F} (h : st.warmStarting = false) {bodies : Nat → JBody F} {pos : Arr (Pos F)} {j : Joint F} (hj : LimitsIdle j) {vel : Arr (Vel F)} :
    (forgetJoint j).initVel st.anew bodies pos vel = j.initVel st bodies pos vel := by
  have h' : ¬ st.warmStarting = true := by rw [h]; simp
  have h'' : ¬ st.anew.warmStarting = true := h'
  cases j with
  | distance j =>
    have k : ∀ p s, DistanceJ.initVel st.anew bodies { j with impulse := 0, lowerImpulse := 0, upperImpulse := 0 } p s = j.initVel st bodies p s := by
      obtain ⟨h1, h2⟩ : j.lowerImpulse = 0 ∧ j.upperImpulse = 0 := hj
      intro p s; unfold DistanceJ.initVel DistanceJ.warm; rw [if_neg h', if_neg h'']; unfold DistanceJ.soften DistanceJ.prepare; dsimp only; rw [h1, h2]; split <;> rfl
    unfold forgetJoint Joint.initVel; dsimp only; simp only [fun p => funext (k p)]
  | revolute j =>
    have k : ∀ p s, Revolute.initVel st.anew bodies { j with impulse := ⟨0, 0⟩, motorImpulse := 0, lowerImpulse := 0, upperImpulse := 0 } p s = j.initVel st bodies p s := by
      intro p s; unfold Revolute.initVel Revolute.warm; rw [if_neg h', if_neg h'']; unfold Revolute.prepare; first | rfl | (dsimp only; split <;> rfl)
    unfold forgetJoint Joint.initVel; dsimp only; simp only [fun p => funext (k p)]
  | prismatic j =>
    have k : ∀ p s, Prismatic.initVel st.anew bodies { j with impulse := ⟨0, 0⟩, motorImpulse := 0, lowerImpulse := 0, upperImpulse := 0 } p s = j.initVel st bodies p s := by
      intro p s; unfold Prismatic.initVel Prismatic.warm; rw [if_neg h', if_neg h'']; unfold Prismatic.prepare; first | rfl | (dsimp only; split <;> rfl)
    unfold forgetJoint Joint.initVel; dsimp only; simp only [fun p => funext (k p)]
  | weld j =>
    have k : ∀ p s, Weld.initVel st.anew bodies { j with impulse := ⟨0, 0, 0⟩ } p s = j.initVel st bodies p s := by
      intro p s; unfold Weld.initVel Weld.warm; rw [if_neg h', if_neg h'']; unfold Weld.prepare; dsimp only; split
      · rfl
      · split <;> rfl
    unfold forgetJoint Joint.initVel; dsimp only; simp only [fun p => funext (k p)]
  | wheel j =>
    have k : ∀ p s, Wheel.initVel st.anew bodies { j with impulse := 0, motorImpulse := 0, springImpulse := 0, lowerImpulse := 0, upperImpulse := 0 } p s = j.initVel st bodies p s := by
      intro p s; unfold Wheel.initVel Wheel.warm; rw [if_neg h', if_neg h'']; unfold Wheel.prepare; first | rfl | (dsimp only; split <;> rfl)
    unfold forgetJoint Joint.initVel; dsimp only; simp only [fun p => funext (k p)]
  | friction j =>
    have k : ∀ p s, FrictionJ.initVel st.anew bodies { j with linearImpulse := ⟨0, 0⟩, angularImpulse := 0 } p s = j.initVel st bodies p s := by
      intro p s; unfold FrictionJ.initVel FrictionJ.warm; rw [if_neg h', if_neg h'']; unfold FrictionJ.prepare; first | rfl | (dsimp only; split <;> rfl)
    unfold forgetJoint Joint.initVel; dsimp only; simp only [fun p => funext (k p)]
  | motor j =>
    have k : ∀ p s, MotorJ.initVel st.anew bodies { j with linearImpulse := ⟨0, 0⟩, angularImpulse := 0 } p s = j.initVel st bodies p s := by
      intro p s; unfold MotorJ.initVel MotorJ.warm; rw [if_neg h', if_neg h'']; unfold MotorJ.prepare; first | rfl | (dsimp only; split <;> rfl)
    unfold forgetJoint Joint.initVel; dsimp only; simp only [fun p => funext (k p)]
  | pulley j =>
    have k : ∀ p s, Pulley.initVel st.anew bodies { j with impulse := 0 } p s = j.initVel st bodies p s := by
      intro p s; unfold Pulley.initVel Pulley.warm; rw [if_neg h', if_neg h'']; unfold Pulley.prepare; first | rfl | (dsimp only; split <;> rfl)
    unfold forgetJoint Joint.initVel; dsimp only; simp only [fun p => funext (k p)]
  | mouse j =>
    have k : ∀ p s, Mouse.initVel st.anew bodies { j with impulse := ⟨0, 0⟩ } p s = j.initVel st bodies p s := by
      intro p s; unfold Mouse.initVel Mouse.warm; rw [if_neg h', if_neg h'']; unfold Mouse.prepare; first | rfl | (dsimp only; split <;> rfl)
    unfold forgetJoint Joint.initVel; dsimp only; simp only [k]
  | gear j =>
    have k : ∀ p s, Gear.initVel st.anew bodies { j with impulse := 0 } p s = j.initVel st bodies p s := by
      intro p s; unfold Gear.initVel Gear.warm; rw [if_neg h', if_neg h'']; unfold Gear.prepare; first | rfl | (dsimp only; split <;> rfl)
    unfold forgetJoint Joint.initVel; dsimp only; simp only [k]

theorem initJoints_forget {st : JStep F} (h : st.warmStarting = false) {bodies : Nat → JBody F} {pos : Arr (Pos F)} : ∀ (js : List (Joint F)) (vel : Arr (Vel F)),
    (∀ j ∈ js, LimitsIdle j) → initJoints st.anew bodies pos (js.map forgetJoint) vel = initJoints st bodies pos js vel := by
  intro js
  induction js with
  | nil => intro vel _; rfl
  | cons j l ih =>
    intro vel hj
    simp only [List.map_cons, initJoints]
    rw [initVel_forget h (hj j (by simp))]
    refine Option.bind_congr (fun r _ => ?_)
    rw [ih r.2 (fun x hx => hj x (by simp [hx]))]

theorem solveVel_anew (st : JStep F) (j : Joint F) (vel : Arr (Vel F)) : j.solveVel st.anew vel = j.solveVel st vel := by
  cases j <;> rfl

theorem solveJoints_anew (st : JStep F) : ∀ (js : List (Joint F)) (vel : Arr (Vel F)), solveJoints st.anew js vel = solveJoints st js vel := by
  intro js
  induction js with
  | nil => intro vel; rfl
  | cons j l ih =>
    intro vel
    simp only [solveJoints, solveVel_anew, ih]

theorem islandIterate_anew (st : JStep F) (block : Bool) : ∀ (n : Nat) (js : List (Joint F)) (l : List (VConstraint F)) (vel : Arr (Vel F)),
    islandIterate st.anew block n js l vel = islandIterate st block n js l vel := by
  intro n
  induction n with
  | zero => intro js l vel; rfl
  | succ n ih => intro js l vel; simp only [islandIterate, solveJoints_anew, ih]

theorem newConstraint_forget (d : F) (c : ContactIn F) : newConstraint false 0 (forgetContact c) = newConstraint false d c := by
  obtain ⟨⟨pts, ln, lp, ty⟩, a1, a2, a3, a4, a5, a6, a7, a8, a9, a10, a11, a12, a13, a14⟩ := c
  unfold newConstraint forgetContact forgetManifold newPoint
  match pts with
  | [] => rfl
  | [q] => rfl
  | [q, r] => rfl
  | q :: r :: s :: t => rfl

theorem worldManifold_forget (m : Manifold F) (xA xB : Xf F) (rA rB : F) : worldManifold (forgetManifold m) xA rA xB rB = worldManifold m xA rA xB rB := by
  obtain ⟨pts, ln, lp, ty⟩ := m
  unfold worldManifold forgetManifold
  match pts, ty with
  | [], _ => rfl
  | [q], .circles => rfl
  | [q], .faceA => rfl
  | [q], .faceB => rfl
  | [q, r], .circles => rfl
  | [q, r], .faceA => rfl
  | [q, r], .faceB => rfl
  | q :: r :: s :: t, .circles => rfl
  | q :: r :: s :: t, .faceA => rfl
  | q :: r :: s :: t, .faceB => rfl

theorem initConstraint_forget {block : Bool} (m : Manifold F) (pos : Arr (Pos F)) (vel : Arr (Vel F)) (vc : VConstraint F) (pc : PConstraint F) :
    initConstraint block (forgetManifold m) pos vel vc pc = initConstraint block m pos vel vc pc := by
  unfold initConstraint
  have : (forgetManifold m).points.isEmpty = m.points.isEmpty := by unfold forgetManifold; cases m.points <;> rfl
  simp only [worldManifold_forget, this]

theorem setUp_forget {block : Bool} {pos : Arr (Pos F)} {vel : Arr (Vel F)} (d : F) : ∀ cs : List (ContactIn F),
    setUp false 0 block pos vel (cs.map forgetContact) = setUp false d block pos vel cs := by
  intro cs
  unfold setUp
  induction cs with
  | nil => rfl
  | cons c l ih =>
    simp only [List.map_cons, List.mapM_cons, newConstraint_forget d c]
    rw [ih]
    have : (forgetContact c).manifold = forgetManifold c.manifold := rfl
    simp only [this, initConstraint_forget]

/-- The joints and the velocities. -/
def outcome (r : List (Joint F) × Arr (Vel F) × List (Manifold F)) : List (Joint F) × Arr (Vel F) := (r.1, r.2.1)

theorem islandVelocity_forget {st : JStep F} (h : st.warmStarting = false) {block : Bool} {n : Nat} {bodies : Nat → JBody F} {pos : Arr (Pos F)} {vel : Arr (Vel F)}
    {cs : List (ContactIn F)} {js : List (Joint F)} (hj : ∀ j ∈ js, LimitsIdle j) :
    (islandVelocity st.anew block n bodies pos vel (cs.map forgetContact) (js.map forgetJoint)).map outcome = (islandVelocity st block n bodies pos vel cs js).map outcome := by
  have e1 : st.anew.warmStarting = false := h
  have e2 : st.anew.dtRatio = 0 := rfl
  unfold islandVelocity
  rw [h, e1, e2, setUp_forget st.dtRatio]
  simp only [Option.bind_eq_bind, Option.map_bind]
  refine Option.bind_congr (fun l hl => ?_)
  try simp only [Function.comp_apply, Option.map_bind]
  refine Option.bind_congr (fun v _ => ?_)
  try simp only [Function.comp_apply, Option.map_bind]
  rw [initJoints_forget h js v hj]
  refine Option.bind_congr (fun q _ => ?_)
  try simp only [Function.comp_apply, Option.map_bind]
  rw [islandIterate_anew]
  refine Option.bind_congr (fun r hr => ?_)
  rfl

/-! ### The engine -/

theorem contactIn_forget (w : World F) (c : Nat) : (forgetWorld w).contactIn c = (w.contactIn c).map forgetContact := by
  unfold World.contactIn
  have h : ∀ f, (forgetWorld w).bodyOf f = w.bodyOf f := fun _ => rfl
  dsimp only
  rw [show (forgetWorld w).g = w.g from rfl, h, h]
  cases w.bodyOf (w.g.contacts c).fA with
  | none => rfl
  | some a =>
    cases w.bodyOf (w.g.contacts c).fB with
    | none => rfl
    | some b => rfl

theorem contactsIn_forget (w : World F) : ∀ l : List Nat, l.mapM (forgetWorld w).contactIn = (l.mapM w.contactIn).map (List.map forgetContact) := by
  intro l
  induction l with
  | nil => rfl
  | cons c l ih =>
    simp only [List.mapM_cons, ih, contactIn_forget]
    cases w.contactIn c with
    | none => rfl
    | some x =>
      cases l.mapM w.contactIn with
      | none => rfl
      | some y => rfl

theorem bind_map {α β γ : Type} (x : Option α) (f : α → β) (g : β → Option γ) : (x.map f).bind g = x.bind (fun a => g (f a)) := by cases x <;> rfl

theorem velocity_forget {E : Engine F} {w : World F} {isl : Island} {step : TimeStep F} (h : step.warmStarting = false) (hj : ∀ j ∈ isl.joints, LimitsIdle (E.joint w j)) (states : List (BState F)) :
    (E.velocity w isl step states).map outcome = ((isl.contacts.mapM (forgetWorld w).contactIn).bind fun cs =>
      (islandVelocity step.jstep.anew E.block step.velocityIterations (forgetWorld w).jbody (World.positionsOf states) (World.velocitiesOf states) cs (isl.joints.map fun j => forgetJoint (E.joint w j))).map outcome) := by
  rw [contactsIn_forget, bind_map]
  unfold Engine.velocity
  simp only [Option.bind_eq_bind, Option.map_bind]
  refine Option.bind_congr (fun cs _ => ?_)
  have := islandVelocity_forget (st := step.jstep) h (block := E.block) (n := step.velocityIterations) (bodies := w.jbody) (pos := World.positionsOf states) (vel := World.velocitiesOf states)
    (cs := cs) (js := isl.joints.map (E.joint w)) (by intro j hx; obtain ⟨i, hi, rfl⟩ := List.mem_map.mp hx; exact hj i hi)
  rw [List.map_map] at this
  exact this.symm

theorem newConstraints_forget (d : F) : ∀ cs : List (ContactIn F), (cs.map forgetContact).mapM (newConstraint false 0) = cs.mapM (newConstraint false d) := by
  intro cs
  induction cs with
  | nil => rfl
  | cons c l ih => simp only [List.map_cons, List.mapM_cons, ih, newConstraint_forget d c]

theorem constraints_forget (w : World F) (l : List Nat) (d : F) {γ : Type} (k : List (VConstraint F × PConstraint F) → Option γ) :
    ((l.mapM w.contactIn).bind fun cs => (cs.mapM (newConstraint false d)).bind k) = (l.mapM (forgetWorld w).contactIn).bind fun cs => (cs.mapM (newConstraint false 0)).bind k := by
  rw [contactsIn_forget, bind_map]
  refine Option.bind_congr (fun cs _ => ?_)
  rw [newConstraints_forget d]

section
variable {E E' : Engine F} {w w' : World F} {isl : Island} {step : TimeStep F} {r : F}

theorem velocity_same (hb : E'.block = E.block) (h : step.warmStarting = false) (hw : forgetWorld w = forgetWorld w') (hj : ∀ j ∈ isl.joints, LimitsIdle (E.joint w j)) (hj' : ∀ j ∈ isl.joints, LimitsIdle (E'.joint w' j))
    (he : ∀ j ∈ isl.joints, forgetJoint (E.joint w j) = forgetJoint (E'.joint w' j)) (states : List (BState F)) :
    (E.velocity w isl step states).map outcome = (E'.velocity w' isl { step with dtRatio := r } states).map outcome := by
  rw [velocity_forget h hj, velocity_forget (step := { step with dtRatio := r }) h hj', hw, List.map_congr_left he, hb]
  rfl

theorem begin_same (hw : forgetWorld w = forgetWorld w') : Engine.begin w isl step = Engine.begin w' isl { step with dtRatio := r } := by
  have h1 : Engine.begin w isl step = Engine.begin (forgetWorld w) isl step := rfl
  have h2 : Engine.begin w' isl { step with dtRatio := r } = Engine.begin (forgetWorld w') isl step := rfl
  rw [h1, h2, hw]

theorem position_same (hb : E'.block = E.block) (h : step.warmStarting = false) (hw : forgetWorld w = forgetWorld w') (hj : ∀ j ∈ isl.joints, LimitsIdle (E.joint w j)) (hj' : ∀ j ∈ isl.joints, LimitsIdle (E'.joint w' j))
    (he : ∀ j ∈ isl.joints, forgetJoint (E.joint w j) = forgetJoint (E'.joint w' j)) (states : List (BState F)) :
    E.position w isl step states = E'.position w' isl { step with dtRatio := r } states := by
  unfold Engine.position
  rw [begin_same (r := r) hw]
  have k := velocity_same (r := r) hb h hw hj hj' he (Engine.begin w' isl { step with dtRatio := r })
  have split : ∀ {γ : Type} (x : Option (List (Joint F) × Arr (Vel F) × List (Manifold F))) (g : List (Joint F) → Option γ), (x.bind fun r => g r.1) = (x.map outcome).bind fun q => g q.1 := by
    intro γ x g; cases x <;> rfl
  simp only [Option.bind_eq_bind]
  rw [split (E.velocity w isl step _) (fun js => (isl.contacts.mapM w.contactIn).bind fun cs => (cs.mapM (newConstraint step.warmStarting step.dtRatio)).bind fun pcs =>
      islandPositions js (pcs.map (·.2)) step.positionIterations (World.positionsOf states)), k,
    split (E'.velocity w' isl { step with dtRatio := r } _) (fun js => (isl.contacts.mapM w'.contactIn).bind fun cs => (cs.mapM (newConstraint step.warmStarting r)).bind fun pcs =>
      islandPositions js (pcs.map (·.2)) step.positionIterations (World.positionsOf states))]
  refine Option.bind_congr (fun q _ => ?_)
  rw [h]
  have a1 := constraints_forget w isl.contacts step.dtRatio (fun pcs => islandPositions q.1 (pcs.map (·.2)) step.positionIterations (World.positionsOf states))
  have a2 := constraints_forget w' isl.contacts r (fun pcs => islandPositions q.1 (pcs.map (·.2)) step.positionIterations (World.positionsOf states))
  rw [hw] at a1
  exact a1.trans a2.symm

theorem toiPosition_same (h : step.warmStarting = false) (hw : forgetWorld w = forgetWorld w') : E.toiPosition w isl step = E'.toiPosition w' isl { step with dtRatio := r } := by
  unfold Engine.toiPosition
  dsimp only
  rw [h]
  have hb : Engine.toiBegin w isl = Engine.toiBegin w' isl := by
    rw [show Engine.toiBegin w isl = Engine.toiBegin (forgetWorld w) isl from rfl, show Engine.toiBegin w' isl = Engine.toiBegin (forgetWorld w') isl from rfl, hw]
  rw [hb]
  have a1 := constraints_forget w isl.contacts step.dtRatio (fun pcs => Engine.toiIterate (pcs.map (·.2)) step.positionIterations (World.positionsOf (Engine.toiBegin w' isl)))
  have a2 := constraints_forget w' isl.contacts r (fun pcs => Engine.toiIterate (pcs.map (·.2)) step.positionIterations (World.positionsOf (Engine.toiBegin w' isl)))
  rw [hw] at a1
  exact a1.trans a2.symm

theorem toiVelocity_forget (h : step.warmStarting = false) (states : List (BState F)) :
    E.toiVelocity w isl step states = (isl.contacts.mapM (forgetWorld w).contactIn).bind fun cs =>
      (setUp false 0 E.block (World.positionsOf states) (World.velocitiesOf states) cs).bind fun vcs =>
        (iterate E.block (fun _ v => v) 0 step.velocityIterations (vcs.map (·.1)) (World.velocitiesOf states)).bind fun r => some r.2 := by
  unfold Engine.toiVelocity
  rw [contactsIn_forget, bind_map, h]
  refine Option.bind_congr (fun cs _ => ?_)
  rw [setUp_forget step.dtRatio]
  rfl

theorem toiVelocity_same (hb : E'.block = E.block) (h : step.warmStarting = false) (hw : forgetWorld w = forgetWorld w') (states : List (BState F)) :
    E.toiVelocity w isl step states = E'.toiVelocity w' isl { step with dtRatio := r } states := by
  rw [toiVelocity_forget h, toiVelocity_forget (step := { step with dtRatio := r }) h, hw, hb]

end
end
end B2
