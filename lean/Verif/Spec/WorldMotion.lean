import Verif.Spec.World

/-! What the constraint solvers leave alone. The solvers are functions of the environment (`Env`); these are the statements about
them that the properties of whole steps rest on. C75, C79 and C85 are the corresponding theorems about the contact solver and the
joints. -/
namespace B2.Spec
set_option linter.unusedSectionVars false

variable {F : Type} [Field F] [LinearOrder F] [IsStrictOrderedRing F] [Elem F]

/-- Times of impact are not negative. -/
def ToiForward (env : Env F) : Prop := ∀ w c r, env.toi w c = some r → 0 ≤ r.2

/-- The solvers do not move a body of zero inverse mass and inertia and do not change its velocity. -/
structure HeavyStay (env : Env F) : Prop where
  velocity : ∀ (w : World F) isl step states (i b : Nat) s, Fitted w isl → isl.bodies[i]? = some b → states[i]? = some s →
    (w.phys b).invMass = 0 → (w.phys b).invI = 0 → env.solveVel w isl step states i = (s.v, s.w)
  position : ∀ (w : World F) isl step states (i b : Nat) s, Fitted w isl → isl.bodies[i]? = some b → states[i]? = some s →
    (w.phys b).invMass = 0 → (w.phys b).invI = 0 → (env.solvePos w isl step states).1 i = (s.c, s.a)
  toiVelocity : ∀ (w : World F) isl step states (i b : Nat) s, Fitted w isl → isl.bodies[i]? = some b → states[i]? = some s →
    (w.phys b).invMass = 0 → (w.phys b).invI = 0 → env.toiVel w isl step states i = (s.v, s.w)
  toiPosition : ∀ (w : World F) isl step (i b : Nat), Fitted w isl → isl.bodies[i]? = some b →
    (w.phys b).invMass = 0 → (w.phys b).invI = 0 → env.toiPos w isl step i = ((w.phys b).sweep.c, (w.phys b).sweep.a)

/-- In one step the body moves by at most the length the engine allows and turns by at most the angle it allows. -/
def Slow (dt : F) (v : Vec2 F) (w : F) : Prop :=
  dot (dt * v) (dt * v) ≤ maxTranslation * maxTranslation ∧ dt * w * (dt * w) ≤ maxRotation * maxRotation

/-- Contact `c` has a fixture of body `b`. -/
def OfBody (w : World F) (c b : Nat) : Prop :=
  (w.g.fixtures (w.g.contacts c).fA).body = some b ∨ (w.g.fixtures (w.g.contacts c).fB).body = some b

/-- The solvers change nothing about a body that no contact and no joint of the island involves. -/
structure FreeStay (env : Env F) : Prop where
  velocity : ∀ (w : World F) isl step states (i b : Nat) s, Fitted w isl → isl.bodies[i]? = some b → states[i]? = some s →
    (∀ c ∈ isl.contacts, ¬ OfBody w c b) → (∀ j ∈ isl.joints, (w.g.joints j).a ≠ b ∧ (w.g.joints j).b ≠ b) →
    env.solveVel w isl step states i = (s.v, s.w)
  position : ∀ (w : World F) isl step states (i b : Nat) s, Fitted w isl → isl.bodies[i]? = some b → states[i]? = some s →
    (∀ c ∈ isl.contacts, ¬ OfBody w c b) → (∀ j ∈ isl.joints, (w.g.joints j).a ≠ b ∧ (w.g.joints j).b ≠ b) →
    (env.solvePos w isl step states).1 i = (s.c, s.a)

/-- The velocity of a free body after a step: gravity and force act for the step's time, then damping divides. -/
def freeV (dt : F) (gravity : Vec2 F) (p : Phys F) : Vec2 F :=
  (1 / (1 + dt * p.linearDamping)) * (p.v + dt * (p.invMass * ((p.gravityScale * p.mass) * gravity + p.force)))

/-- The angular velocity of a free body after a step. -/
def freeW (dt : F) (p : Phys F) : F := (p.w + dt * (p.invI * p.torque)) / (1 + dt * p.angularDamping)

/-- The body is slow enough to fall asleep at these velocities, and its sleeping has not been disallowed. -/
def Sleepy (p : Phys F) (v : Vec2 F) (w : F) : Prop :=
  p.autoSleep = true ∧ w * w ≤ angularSleepTolerance * angularSleepTolerance ∧ dot v v ≤ linearSleepTolerance * linearSleepTolerance

/-- The worlds reached by calls as in `WHist`, but with every step taken with sub-stepping off, and with no static body given a
velocity in its definition. -/
inductive PlainHist (env : Env F) : World F → Prop
  | new (gravity : Vec2 F) (dPhys : Phys F) (dShape : Shape F) (dAttr : FAttr F) (dCst : CState F) (dBox : AABB F) :
      PlainHist env (World.new gravity dPhys dShape dAttr dCst dBox)
  | call {w w' : World F} (c : Call F) : PlainHist env w → c.Ok w → (∀ dt vi pi, c = .step dt vi pi → w.subStepping = false) →
      (∀ d, c = .createBody d → d.type = .static → d.linearVelocity = ⟨0, 0⟩ ∧ d.angularVelocity = 0) → c.run env w = some w' → PlainHist env w'

/-- What a call must respect about kinematic bodies, for the broad-phase to follow them: no kinematic body is made or put to sleep while
it may be moving, and at a step no kinematic body moves faster than the engine allows, or so slowly that it may be put to sleep
before it rests. -/
def Steady (w : World F) : Call F → Prop
  | .createBody d => d.type = .kinematic → d.awake = true
  | .user (.body b (.setAwake false)) => w.typeOf b ≠ .kinematic
  | .step dt _ _ => ∀ b ∈ w.g.bodyList, w.typeOf b = .kinematic → (w.phys b).awake = true → (w.g.bodies b).enabled = true → 0 < dt →
      Slow dt (w.phys b).v (w.phys b).w ∧
      (w.allowSleep = true → Sleepy (w.phys b) (w.phys b).v (w.phys b).w → (w.phys b).v = ⟨0, 0⟩ ∧ (w.phys b).w = 0)
  | _ => True

/-- The worlds reached by calls as in `PlainHist` that are `Steady`. -/
inductive SteadyHist (env : Env F) : World F → Prop
  | new (gravity : Vec2 F) (dPhys : Phys F) (dShape : Shape F) (dAttr : FAttr F) (dCst : CState F) (dBox : AABB F) :
      SteadyHist env (World.new gravity dPhys dShape dAttr dCst dBox)
  | call {w w' : World F} (c : Call F) : SteadyHist env w → c.Ok w → (∀ dt vi pi, c = .step dt vi pi → w.subStepping = false) →
      (∀ d, c = .createBody d → d.type = .static → d.linearVelocity = ⟨0, 0⟩ ∧ d.angularVelocity = 0) → Steady w c → c.run env w = some w' → SteadyHist env w'

end B2.Spec
