import Verif.Model.Joint
import Verif.Proofs.ContactSolver

/-!
# Lemmas about joints

Every joint between two bodies holds an accumulated impulse and the arms with which it acts: a `View`. Whatever the
solver does is to change the accumulated impulse and to apply the change to the bodies (`Carried`).
-/
namespace B2

section
variable {F : Type} [Field F]

/-- What a joint does to its bodies: with the masses of `frame`, body B has got the linear impulse `p` and the angular
impulse `lb`, body A has got `-p` and `-la`. -/
structure View (F : Type) where
  frame : PairFrame F
  p : Vec2 F
  la : F
  lb : F

/-- The velocities changed from `s` to `s'` by what the view changed. -/
def Carried (v v' : View F) (s s' : Two F) : Prop :=
  v'.frame = v.frame ∧ s' = v.frame.kick (v'.p - v.p) (v'.la - v.la) (v'.lb - v.lb) s

@[ext] theorem Two.ext' {s t : Two F} (h1 : s.a = t.a) (h2 : s.b = t.b) : s = t := by
  cases s; cases t; simp_all

theorem kick_ext (f : PairFrame F) (p : Vec2 F) (la lb : F) (s t : Two F) (h1 : t.a.v.x = s.a.v.x - f.a.invMass * p.x)
    (h2 : t.a.v.y = s.a.v.y - f.a.invMass * p.y) (h3 : t.a.w = s.a.w - f.a.invI * la)
    (h4 : t.b.v.x = s.b.v.x + f.b.invMass * p.x) (h5 : t.b.v.y = s.b.v.y + f.b.invMass * p.y)
    (h6 : t.b.w = s.b.w + f.b.invI * lb) : t = f.kick p la lb s := by
  refine Two.ext' (Vel.ext (Vec2.ext ?_ ?_) ?_) (Vel.ext (Vec2.ext ?_ ?_) ?_) <;>
    simp [PairFrame.kick, *]

theorem Carried.refl (v : View F) (s : Two F) : Carried v v s s := by
  refine ⟨rfl, kick_ext _ _ _ _ _ _ ?_ ?_ ?_ ?_ ?_ ?_⟩ <;> simp

theorem Carried.trans {u v w : View F} {s t r : Two F} (h : Carried u v s t) (h' : Carried v w t r) : Carried u w s r := by
  obtain ⟨h1, rfl⟩ := h
  obtain ⟨h2, rfl⟩ := h'
  refine ⟨h2.trans h1, ?_⟩
  rw [h1]
  refine kick_ext _ _ _ _ _ _ ?_ ?_ ?_ ?_ ?_ ?_ <;> simp only [PairFrame.kick, Vec2.sub_x, Vec2.sub_y, Vec2.add_x, Vec2.add_y,
    Vec2.smul_x, Vec2.smul_y] <;> ring

/-- A twist is a kick without linear impulse. -/
theorem twist_kick (f : PairFrame F) (l : F) (s : Two F) : f.twist l s = f.kick ⟨0, 0⟩ l l s := by
  refine kick_ext _ _ _ _ _ _ ?_ ?_ ?_ ?_ ?_ ?_ <;> simp [PairFrame.twist]

theorem carried_of {v v' : View F} {s s' : Two F} {p : Vec2 F} {la lb : F} (hf : v'.frame = v.frame)
    (hs : s' = v.frame.kick p la lb s) (h1 : p.x = v'.p.x - v.p.x) (h2 : p.y = v'.p.y - v.p.y) (h3 : la = v'.la - v.la)
    (h4 : lb = v'.lb - v.lb) : Carried v v' s s' := by
  refine ⟨hf, ?_⟩
  have : p = v'.p - v.p := by ext <;> simp [*]
  rw [hs, this, h3, h4]

end

section
variable {F : Type} [Field F] [LinearOrder F]

/-! ## The views -/

def Revolute.view (j : Revolute F) : View F :=
  let axial := j.motorImpulse + j.lowerImpulse - j.upperImpulse
  ⟨j.frame, j.impulse, cross j.rA j.impulse + axial, cross j.rB j.impulse + axial⟩
/-- The joint without its impulses. -/
def Revolute.strip (j : Revolute F) : Revolute F :=
  { j with impulse := ⟨0, 0⟩, motorImpulse := 0, lowerImpulse := 0, upperImpulse := 0 }

def DistanceJ.view (j : DistanceJ F) : View F :=
  let p := (j.impulse + j.lowerImpulse - j.upperImpulse) * j.u
  ⟨j.frame, p, cross j.rA p, cross j.rB p⟩
/-- The joint without its impulses. -/
def DistanceJ.strip (j : DistanceJ F) : DistanceJ F := { j with impulse := 0, lowerImpulse := 0, upperImpulse := 0 }

def Prismatic.view (j : Prismatic F) : View F :=
  let axial := j.motorImpulse + j.lowerImpulse - j.upperImpulse
  ⟨j.frame, j.impulse.x * j.perp + axial * j.axis, j.impulse.x * j.s1 + j.impulse.y + axial * j.a1,
    j.impulse.x * j.s2 + j.impulse.y + axial * j.a2⟩
/-- The joint without its impulses. -/
def Prismatic.strip (j : Prismatic F) : Prismatic F :=
  { j with impulse := ⟨0, 0⟩, motorImpulse := 0, lowerImpulse := 0, upperImpulse := 0 }

def Weld.view (j : Weld F) : View F :=
  let p : Vec2 F := ⟨j.impulse.x, j.impulse.y⟩
  ⟨j.frame, p, cross j.rA p + j.impulse.z, cross j.rB p + j.impulse.z⟩
/-- The joint without its impulses. -/
def Weld.strip (j : Weld F) : Weld F := { j with impulse := ⟨0, 0, 0⟩ }

def Wheel.view (j : Wheel F) : View F :=
  let axial := j.springImpulse + j.lowerImpulse - j.upperImpulse
  ⟨j.frame, j.impulse * j.ay + axial * j.ax, j.impulse * j.sAy + axial * j.sAx + j.motorImpulse,
    j.impulse * j.sBy + axial * j.sBx + j.motorImpulse⟩
/-- The joint without its impulses. -/
def Wheel.strip (j : Wheel F) : Wheel F :=
  { j with impulse := 0, springImpulse := 0, motorImpulse := 0, lowerImpulse := 0, upperImpulse := 0 }

def FrictionJ.view (j : FrictionJ F) : View F :=
  ⟨j.frame, j.linearImpulse, cross j.rA j.linearImpulse + j.angularImpulse, cross j.rB j.linearImpulse + j.angularImpulse⟩
/-- The joint without its impulses. -/
def FrictionJ.strip (j : FrictionJ F) : FrictionJ F := { j with linearImpulse := ⟨0, 0⟩, angularImpulse := 0 }

def MotorJ.view (j : MotorJ F) : View F :=
  ⟨j.frame, j.linearImpulse, cross j.rA j.linearImpulse + j.angularImpulse, cross j.rB j.linearImpulse + j.angularImpulse⟩
/-- The joint without its impulses. -/
def MotorJ.strip (j : MotorJ F) : MotorJ F := { j with linearImpulse := ⟨0, 0⟩, angularImpulse := 0 }

/-! ## Solving -/

theorem Vec3.add_x' (a b : Vec3 F) : (a + b).x = a.x + b.x := rfl
theorem Vec3.add_y' (a b : Vec3 F) : (a + b).y = a.y + b.y := rfl
theorem Vec3.add_z' (a b : Vec3 F) : (a + b).z = a.z + b.z := rfl
theorem Vec3.smul_x' (s : F) (b : Vec3 F) : (s * b).x = s * b.x := rfl
theorem Vec3.smul_y' (s : F) (b : Vec3 F) : (s * b).y = s * b.y := rfl
theorem Vec3.smul_z' (s : F) (b : Vec3 F) : (s * b).z = s * b.z := rfl

/-- Closes the equations of `carried_of`. -/
macro "view_eqs" : tactic =>
  `(tactic| (simp only [Revolute.view, DistanceJ.view, Prismatic.view, Weld.view, Wheel.view, FrictionJ.view, MotorJ.view,
      Vec3.add_x', Vec3.add_y', Vec3.add_z',
      cross, Vec2.add_x, Vec2.add_y, Vec2.sub_x, Vec2.sub_y, Vec2.neg_x, Vec2.neg_y, Vec2.smul_x, Vec2.smul_y] <;> ring))

/-- What a function of the solver does: the velocities change by what the joint notes, and nothing else of the joint
changes. -/
def Does {α : Type} (view : α → View F) (strip : α → α) (j : α) (s : Two F) (r : α × Two F) : Prop :=
  Carried (view j) (view r.1) s r.2 ∧ strip r.1 = strip j

theorem Does.refl {α : Type} (view : α → View F) (strip : α → α) (j : α) (s : Two F) : Does view strip j s (j, s) :=
  ⟨.refl _ _, rfl⟩
theorem Does.trans {α : Type} {view : α → View F} {strip : α → α} {j : α} {s : Two F} {r q : α × Two F}
    (h : Does view strip j s r) (h' : Does view strip r.1 r.2 q) : Does view strip j s q :=
  ⟨h.1.trans h'.1, h'.2.trans h.2⟩
theorem Does.ite {α : Type} {view : α → View F} {strip : α → α} {j : α} {s : Two F} {r q : α × Two F} {c : Prop} [Decidable c]
    (h : Does view strip j s r) (h' : Does view strip j s q) : Does view strip j s (if c then r else q) := by
  split <;> assumption

theorem Revolute.motor_does (st : JStep F) (j : Revolute F) (s : Two F) : Does Revolute.view Revolute.strip j s (j.motor st s) := by
  refine ⟨carried_of rfl (twist_kick ..) ?_ ?_ ?_ ?_, rfl⟩ <;> simp only [Revolute.motor] <;> view_eqs
theorem Revolute.lower_does (st : JStep F) (j : Revolute F) (s : Two F) : Does Revolute.view Revolute.strip j s (j.lower st s) := by
  refine ⟨carried_of rfl (twist_kick ..) ?_ ?_ ?_ ?_, rfl⟩ <;> simp only [Revolute.lower] <;> view_eqs
theorem Revolute.upper_does (st : JStep F) (j : Revolute F) (s : Two F) : Does Revolute.view Revolute.strip j s (j.upper st s) := by
  refine ⟨carried_of rfl (twist_kick ..) ?_ ?_ ?_ ?_, rfl⟩ <;> simp only [Revolute.upper] <;> view_eqs
theorem Revolute.point_does (j : Revolute F) (s : Two F) : Does Revolute.view Revolute.strip j s (j.point s) := by
  refine ⟨carried_of rfl rfl ?_ ?_ ?_ ?_, rfl⟩ <;> simp only [Revolute.point] <;> view_eqs

theorem Revolute.solveVel_does (st : JStep F) (j : Revolute F) (s : Two F) :
    Does Revolute.view Revolute.strip j s (j.solveVel st s) := by
  have h1 : Does Revolute.view Revolute.strip j s
      (if j.enableMotor && !decide (j.frame.a.invI + j.frame.b.invI = 0) then j.motor st s else (j, s)) :=
    .ite (j.motor_does st s) (.refl _ _ _ _)
  refine Does.trans (Does.trans h1 ?_) (Revolute.point_does _ _)
  exact .ite ((Revolute.lower_does st _ _).trans (Revolute.upper_does st _ _)) (.refl _ _ _ _)

theorem DistanceJ.push_kick (j : DistanceJ F) (x : F) (s : Two F) :
    j.push x s = j.frame.kick (x * j.u) (cross j.rA (x * j.u)) (cross j.rB (x * j.u)) s := rfl

theorem DistanceJ.spring_does (j : DistanceJ F) (s : Two F) : Does DistanceJ.view DistanceJ.strip j s (j.spring s) := by
  refine ⟨carried_of rfl rfl ?_ ?_ ?_ ?_, rfl⟩ <;> simp only [DistanceJ.spring] <;> view_eqs
theorem DistanceJ.lower_does (st : JStep F) (j : DistanceJ F) (s : Two F) :
    Does DistanceJ.view DistanceJ.strip j s (j.lower st s) := by
  refine ⟨carried_of rfl rfl ?_ ?_ ?_ ?_, rfl⟩ <;> simp only [DistanceJ.lower] <;> view_eqs
theorem DistanceJ.upper_does (st : JStep F) (j : DistanceJ F) (s : Two F) :
    Does DistanceJ.view DistanceJ.strip j s (j.upper st s) := by
  refine ⟨carried_of rfl rfl ?_ ?_ ?_ ?_, rfl⟩ <;> simp only [DistanceJ.upper] <;> view_eqs
theorem DistanceJ.rigid_does (j : DistanceJ F) (s : Two F) : Does DistanceJ.view DistanceJ.strip j s (j.rigid s) := by
  refine ⟨carried_of rfl rfl ?_ ?_ ?_ ?_, rfl⟩ <;> simp only [DistanceJ.rigid] <;> view_eqs

theorem DistanceJ.solveVel_does (st : JStep F) (j : DistanceJ F) (s : Two F) :
    Does DistanceJ.view DistanceJ.strip j s (j.solveVel st s) := by
  unfold DistanceJ.solveVel
  refine .ite ?_ (j.rigid_does s)
  have h1 : Does DistanceJ.view DistanceJ.strip j s (if j.stiffness > 0 then j.spring s else (j, s)) :=
    .ite (j.spring_does s) (.refl _ _ _ _)
  exact (h1.trans (DistanceJ.lower_does st _ _)).trans (DistanceJ.upper_does st _ _)

theorem Prismatic.motor_does (st : JStep F) (j : Prismatic F) (s : Two F) :
    Does Prismatic.view Prismatic.strip j s (j.motor st s) := by
  refine ⟨carried_of rfl rfl ?_ ?_ ?_ ?_, rfl⟩ <;> simp only [Prismatic.motor] <;> view_eqs
theorem Prismatic.lower_does (st : JStep F) (j : Prismatic F) (s : Two F) :
    Does Prismatic.view Prismatic.strip j s (j.lower st s) := by
  refine ⟨carried_of rfl rfl ?_ ?_ ?_ ?_, rfl⟩ <;> simp only [Prismatic.lower] <;> view_eqs
theorem Prismatic.upper_does (st : JStep F) (j : Prismatic F) (s : Two F) :
    Does Prismatic.view Prismatic.strip j s (j.upper st s) := by
  refine ⟨carried_of rfl rfl ?_ ?_ ?_ ?_, rfl⟩ <;> simp only [Prismatic.upper] <;> view_eqs
theorem Prismatic.block_does (j : Prismatic F) (s : Two F) : Does Prismatic.view Prismatic.strip j s (j.block s) := by
  refine ⟨carried_of rfl rfl ?_ ?_ ?_ ?_, rfl⟩ <;> simp only [Prismatic.block] <;> view_eqs

theorem Prismatic.solveVel_does (st : JStep F) (j : Prismatic F) (s : Two F) :
    Does Prismatic.view Prismatic.strip j s (j.solveVel st s) := by
  have h1 : Does Prismatic.view Prismatic.strip j s (if j.enableMotor then j.motor st s else (j, s)) :=
    .ite (j.motor_does st s) (.refl _ _ _ _)
  refine Does.trans (Does.trans h1 ?_) (Prismatic.block_does _ _)
  exact .ite ((Prismatic.lower_does st _ _).trans (Prismatic.upper_does st _ _)) (.refl _ _ _ _)

theorem Weld.soft_does (j : Weld F) (s : Two F) : Does Weld.view Weld.strip j s (j.soft s) := by
  refine ⟨⟨rfl, ?_⟩, rfl⟩
  refine kick_ext _ _ _ _ _ _ ?_ ?_ ?_ ?_ ?_ ?_ <;> simp only [Weld.soft, Weld.view, PairFrame.kick, PairFrame.twist, cross,
    Vec2.sub_x, Vec2.sub_y, Vec2.add_x, Vec2.add_y, Vec2.smul_x, Vec2.smul_y] <;> ring
theorem Weld.rigid_does (j : Weld F) (s : Two F) : Does Weld.view Weld.strip j s (j.rigid s) := by
  refine ⟨carried_of rfl rfl ?_ ?_ ?_ ?_, rfl⟩ <;> simp only [Weld.rigid] <;> view_eqs
theorem Weld.solveVel_does (j : Weld F) (s : Two F) : Does Weld.view Weld.strip j s (j.solveVel s) :=
  .ite (j.soft_does s) (j.rigid_does s)

theorem Wheel.spring_does (j : Wheel F) (s : Two F) : Does Wheel.view Wheel.strip j s (j.spring s) := by
  refine ⟨carried_of rfl rfl ?_ ?_ ?_ ?_, rfl⟩ <;> simp only [Wheel.spring] <;> view_eqs
theorem Wheel.motor_does (st : JStep F) (j : Wheel F) (s : Two F) : Does Wheel.view Wheel.strip j s (j.motor st s) := by
  refine ⟨carried_of rfl (twist_kick ..) ?_ ?_ ?_ ?_, rfl⟩ <;> simp only [Wheel.motor] <;> view_eqs
theorem Wheel.lower_does (st : JStep F) (j : Wheel F) (s : Two F) : Does Wheel.view Wheel.strip j s (j.lower st s) := by
  refine ⟨carried_of rfl rfl ?_ ?_ ?_ ?_, rfl⟩ <;> simp only [Wheel.lower] <;> view_eqs
theorem Wheel.upper_does (st : JStep F) (j : Wheel F) (s : Two F) : Does Wheel.view Wheel.strip j s (j.upper st s) := by
  refine ⟨carried_of rfl rfl ?_ ?_ ?_ ?_, rfl⟩ <;> simp only [Wheel.upper] <;> view_eqs
theorem Wheel.line_does (j : Wheel F) (s : Two F) : Does Wheel.view Wheel.strip j s (j.line s) := by
  refine ⟨carried_of rfl rfl ?_ ?_ ?_ ?_, rfl⟩ <;> simp only [Wheel.line] <;> view_eqs

theorem Wheel.solveVel_does (st : JStep F) (j : Wheel F) (s : Two F) :
    Does Wheel.view Wheel.strip j s (j.solveVel st s) := by
  have h1 : Does Wheel.view Wheel.strip j s ((j.spring s).1.motor st (j.spring s).2) :=
    (j.spring_does s).trans (Wheel.motor_does st _ _)
  refine Does.trans (Does.trans h1 ?_) (Wheel.line_does _ _)
  exact .ite ((Wheel.lower_does st _ _).trans (Wheel.upper_does st _ _)) (.refl _ _ _ _)

theorem FrictionJ.turn_does (st : JStep F) (j : FrictionJ F) (s : Two F) :
    Does FrictionJ.view FrictionJ.strip j s (j.turn st s) := by
  refine ⟨carried_of rfl (twist_kick ..) ?_ ?_ ?_ ?_, rfl⟩ <;> simp only [FrictionJ.turn] <;> view_eqs
theorem FrictionJ.slip_does [Elem F] (st : JStep F) (j : FrictionJ F) (s : Two F) :
    Does FrictionJ.view FrictionJ.strip j s (j.slip st s) := by
  refine ⟨carried_of rfl rfl ?_ ?_ ?_ ?_, rfl⟩ <;> simp only [FrictionJ.slip] <;> view_eqs
theorem FrictionJ.solveVel_does [Elem F] (st : JStep F) (j : FrictionJ F) (s : Two F) :
    Does FrictionJ.view FrictionJ.strip j s (j.solveVel st s) := (j.turn_does st s).trans (FrictionJ.slip_does st _ _)

theorem MotorJ.turn_does (st : JStep F) (j : MotorJ F) (s : Two F) :
    Does MotorJ.view MotorJ.strip j s (j.turn st s) := by
  refine ⟨carried_of rfl (twist_kick ..) ?_ ?_ ?_ ?_, rfl⟩ <;> simp only [MotorJ.turn] <;> view_eqs
theorem MotorJ.slip_does [Elem F] (st : JStep F) (j : MotorJ F) (s : Two F) :
    Does MotorJ.view MotorJ.strip j s (j.slip st s) := by
  refine ⟨carried_of rfl rfl ?_ ?_ ?_ ?_, rfl⟩ <;> simp only [MotorJ.slip] <;> view_eqs
theorem MotorJ.solveVel_does [Elem F] (st : JStep F) (j : MotorJ F) (s : Two F) :
    Does MotorJ.view MotorJ.strip j s (j.solveVel st s) := (j.turn_does st s).trans (MotorJ.slip_does st _ _)

/-! ## Initializing -/

/-- The view with no impulse yet. -/
def View.start (v : View F) : View F := ⟨v.frame, ⟨0, 0⟩, 0, 0⟩

theorem start_of_zero {v : View F} (h1 : v.p = ⟨0, 0⟩) (h2 : v.la = 0) (h3 : v.lb = 0) (s : Two F) :
    Carried v.start v s s := by
  refine ⟨rfl, ?_⟩
  rw [h1, h2, h3]
  refine kick_ext _ _ _ _ _ _ ?_ ?_ ?_ ?_ ?_ ?_ <;> simp [View.start]

theorem start_of_kick {v : View F} {s s' : Two F} (h : s' = v.frame.kick v.p v.la v.lb s) : Carried v.start v s s' := by
  refine ⟨rfl, ?_⟩
  rw [h]
  refine kick_ext _ _ _ _ _ _ ?_ ?_ ?_ ?_ ?_ ?_ <;> simp [View.start, PairFrame.kick]

theorem Revolute.warm_does (st : JStep F) (j : Revolute F) (s : Two F) :
    Carried (j.warm st s).1.view.start (j.warm st s).1.view s (j.warm st s).2 ∧ (j.warm st s).1.strip = j.strip := by
  unfold Revolute.warm
  split
  · exact ⟨start_of_kick rfl, rfl⟩
  · exact ⟨start_of_zero rfl (by simp [Revolute.view, cross]) (by simp [Revolute.view, cross]) _, rfl⟩

/-- Warm starting a distance joint; without it the impulses of the limits must be zero before. -/
theorem DistanceJ.warm_does (st : JStep F) (j : DistanceJ F) (s : Two F)
    (h : st.warmStarting = true ∨ j.lowerImpulse = 0 ∧ j.upperImpulse = 0) :
    Carried (j.warm st s).1.view.start (j.warm st s).1.view s (j.warm st s).2 ∧ (j.warm st s).1.strip = j.strip := by
  unfold DistanceJ.warm
  split
  · exact ⟨start_of_kick rfl, rfl⟩
  · rename_i hw
    rcases h with h | ⟨h1, h2⟩
    · exact absurd h hw
    · refine ⟨start_of_zero ?_ ?_ ?_ _, rfl⟩ <;> simp only [DistanceJ.view, cross, h1, h2] <;>
        first | (ext <;> simp) | simp

theorem Prismatic.warm_does (st : JStep F) (j : Prismatic F) (s : Two F) :
    Carried (j.warm st s).1.view.start (j.warm st s).1.view s (j.warm st s).2 ∧ (j.warm st s).1.strip = j.strip := by
  unfold Prismatic.warm
  split
  · exact ⟨start_of_kick rfl, rfl⟩
  · refine ⟨start_of_zero ?_ ?_ ?_ _, rfl⟩ <;> simp only [Prismatic.view] <;> first | (ext <;> simp) | simp

theorem Weld.warm_does (st : JStep F) (j : Weld F) (s : Two F) :
    Carried (j.warm st s).1.view.start (j.warm st s).1.view s (j.warm st s).2 ∧ (j.warm st s).1.strip = j.strip := by
  unfold Weld.warm
  split
  · exact ⟨start_of_kick rfl, rfl⟩
  · refine ⟨start_of_zero rfl ?_ ?_ _, rfl⟩ <;> simp [Weld.view, cross]

theorem Wheel.warm_does (st : JStep F) (j : Wheel F) (s : Two F) :
    Carried (j.warm st s).1.view.start (j.warm st s).1.view s (j.warm st s).2 ∧ (j.warm st s).1.strip = j.strip := by
  unfold Wheel.warm
  split
  · exact ⟨start_of_kick rfl, rfl⟩
  · refine ⟨start_of_zero ?_ ?_ ?_ _, rfl⟩ <;> simp only [Wheel.view] <;> first | (ext <;> simp) | simp

theorem FrictionJ.warm_does (st : JStep F) (j : FrictionJ F) (s : Two F) :
    Carried (j.warm st s).1.view.start (j.warm st s).1.view s (j.warm st s).2 ∧ (j.warm st s).1.strip = j.strip := by
  unfold FrictionJ.warm
  split
  · exact ⟨start_of_kick rfl, rfl⟩
  · refine ⟨start_of_zero rfl ?_ ?_ _, rfl⟩ <;> simp [FrictionJ.view, cross]

theorem MotorJ.warm_does (st : JStep F) (j : MotorJ F) (s : Two F) :
    Carried (j.warm st s).1.view.start (j.warm st s).1.view s (j.warm st s).2 ∧ (j.warm st s).1.strip = j.strip := by
  unfold MotorJ.warm
  split
  · exact ⟨start_of_kick rfl, rfl⟩
  · refine ⟨start_of_zero rfl ?_ ?_ _, rfl⟩ <;> simp [MotorJ.view, cross]

end
end B2
