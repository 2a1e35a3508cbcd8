import Verif.Model.Base
import Verif.Model.Collision

/-!
# The contact solver

Models `src/private/dynamics/b2_contact_solver.rs`, `src/private/dynamics/b2_contact_solver_private.rs` and
`b2_world_manifold_initialize` of `src/private/collision/b2_collision.rs`. A panic (a failed assertion, an index out
of range) is `none`. Arithmetic is exact. `B2_DEBUG_SOLVER` is the constant false, so the blocks it guards are left
out. `G_BLOCK_SOLVE` is a parameter `block`, constant during the solution of an island.
-/
namespace B2

/-- A slice: its length and its elements. -/
structure Arr (α : Type) where
  len : Nat
  at' : Nat → α

/-- Reading an element of a slice; out of range is a panic. -/
def Arr.get {α : Type} (a : Arr α) (i : Nat) : Option α := if i < a.len then some (a.at' i) else none
/-- Writing an element of a slice; out of range is a panic. -/
def Arr.set {α : Type} (a : Arr α) (i : Nat) (v : α) : Option (Arr α) :=
  if i < a.len then some { a with at' := upd a.at' i v } else none

/-- `B2velocity` (b2_time_step.rs 36-39). -/
@[ext] structure Vel (F : Type) where
  v : Vec2 F
  w : F
/-- `B2position` (b2_time_step.rs 29-32). -/
@[ext] structure Pos (F : Type) where
  c : Vec2 F
  a : F

/-- `B2velocityConstraintPoint` (b2_contact_solver.rs 11-20). -/
structure VPoint (F : Type) where
  rA : Vec2 F
  rB : Vec2 F
  normalImpulse : F
  tangentImpulse : F
  normalMass : F
  tangentMass : F
  velocityBias : F

/-- `B2contactVelocityConstraint` (b2_contact_solver.rs 23-41). The two entries of `points` are `p1` and `p2`;
`contact_index` is left out: it is the position in the list of constraints. -/
structure VConstraint (F : Type) where
  p1 : VPoint F
  p2 : VPoint F
  normal : Vec2 F
  normalMass : Mat22 F
  k : Mat22 F
  indexA : Nat
  indexB : Nat
  invMassA : F
  invMassB : F
  invIA : F
  invIB : F
  friction : F
  restitution : F
  threshold : F
  tangentSpeed : F
  pointCount : Nat

/-- `B2contactPositionConstraint` (b2_contact_solver.rs 102-119). The two entries of `local_points` are
`lp1` and `lp2`. -/
structure PConstraint (F : Type) where
  lp1 : Vec2 F
  lp2 : Vec2 F
  localNormal : Vec2 F
  localPoint : Vec2 F
  indexA : Nat
  indexB : Nat
  invMassA : F
  invMassB : F
  localCenterA : Vec2 F
  localCenterB : Vec2 F
  invIA : F
  invIB : F
  type : ManifoldType
  radiusA : F
  radiusB : F
  pointCount : Nat

/-- What the solver reads of a contact, its fixtures' shapes and its bodies (b2_contact_solver_private.rs 33-81). -/
structure ContactIn (F : Type) where
  manifold : Manifold F
  friction : F
  restitution : F
  threshold : F
  tangentSpeed : F
  radiusA : F
  radiusB : F
  indexA : Nat
  indexB : Nat
  invMassA : F
  invMassB : F
  invIA : F
  invIB : F
  localCenterA : Vec2 F
  localCenterB : Vec2 F

section
variable {F : Type} [Field F] [LinearOrder F]

/-- `B2_BAUMGARTE` (b2_common.rs 79). -/
def baumgarte : F := 2 / 10
/-- `B2_TOI_BAUMGARTE` (b2_common.rs 80). -/
def toiBaumgarte : F := 75 / 100
/-- `B2_MAX_LINEAR_CORRECTION` (b2_common.rs 60). -/
def maxLinearCorrection : F := 2 / 10

/-! ## The world manifold -/

/-- `B2worldManifold` (b2_collision.rs 118-125): its two points and separations. -/
structure WorldManifold (F : Type) where
  normal : Vec2 F
  p1 : Vec2 F
  p2 : Vec2 F
  s1 : F
  s2 : F

/-- `B2worldManifold::default()`. -/
def WorldManifold.default : WorldManifold F := ⟨⟨0, 0⟩, ⟨0, 0⟩, ⟨0, 0⟩, 0, 0⟩

/-- One turn of the loops of the face cases of `b2_world_manifold_initialize` (private/collision/b2_collision.rs
39-47, 55-63): `clip` is the clip point, the reference face has radius `rRef`, the other shape `rOther`; the world
point and the two surface points, first that of the reference face. -/
def worldPoint (clip planePoint normal : Vec2 F) (rRef rOther : F) : Vec2 F × Vec2 F × Vec2 F :=
  let cRef := clip + (rRef - dot (clip - planePoint) normal) * normal
  let cOther := clip - rOther * normal
  ((1 / 2 : F) * (cRef + cOther), cRef, cOther)

/-- `b2_world_manifold_initialize` (private/collision/b2_collision.rs 7-68), on a default world manifold. -/
def worldManifold [Elem F] (m : Manifold F) (xfA : Xf F) (radiusA : F) (xfB : Xf F) (radiusB : F) :
    Option (WorldManifold F) :=
  match m.points with
  | [] => some WorldManifold.default
  | q :: rest =>
    match m.type with
    | .circles =>
      let pointA := xfA.mulV m.localPoint
      let pointB := xfB.mulV q.localPoint
      let normal : Vec2 F := if distanceV2 pointA pointB > epsilon * epsilon then (pointB - pointA).normalize.1 else ⟨1, 0⟩
      let cA := pointA + radiusA * normal
      let cB := pointB - radiusB * normal
      some { WorldManifold.default with
        normal := normal, p1 := (1 / 2 : F) * (cA + cB), s1 := dot (cB - cA) normal }
    | .faceA =>
      let normal := xfA.q.mulV m.localNormal
      let planePoint := xfA.mulV m.localPoint
      let r1 := worldPoint (xfB.mulV q.localPoint) planePoint normal radiusA radiusB
      let wm := { WorldManifold.default with normal := normal, p1 := r1.1, s1 := dot (r1.2.2 - r1.2.1) normal }
      match rest with
      | [] => some wm
      | [q2] =>
        let r2 := worldPoint (xfB.mulV q2.localPoint) planePoint normal radiusA radiusB
        some { wm with p2 := r2.1, s2 := dot (r2.2.2 - r2.2.1) normal }
      | _ => none
    | .faceB =>
      let normal := xfB.q.mulV m.localNormal
      let planePoint := xfB.mulV m.localPoint
      let r1 := worldPoint (xfA.mulV q.localPoint) planePoint normal radiusB radiusA
      let wm := { WorldManifold.default with normal := -normal, p1 := r1.1, s1 := dot (r1.2.2 - r1.2.1) normal }
      match rest with
      | [] => some wm
      | [q2] =>
        let r2 := worldPoint (xfA.mulV q2.localPoint) planePoint normal radiusB radiusA
        some { wm with p2 := r2.1, s2 := dot (r2.2.2 - r2.2.1) normal }
      | _ => none

/-! ## Setting up the constraints -/

/-- The default constraint point, before anything is written to it (b2_contact_solver.rs 10). -/
def VPoint.zero : VPoint F := ⟨⟨0, 0⟩, ⟨0, 0⟩, 0, 0, 0, 0, 0⟩

/-- One turn of the inner loop of `new` (b2_contact_solver_private.rs 83-103), the part for velocities. -/
def newPoint (warm : Bool) (dtRatio : F) (cp : ManifoldPoint F) : VPoint F :=
  { VPoint.zero with
    normalImpulse := if warm then dtRatio * cp.normalImpulse else 0
    tangentImpulse := if warm then dtRatio * cp.tangentImpulse else 0 }

/-- One turn of the outer loop of `new` (b2_contact_solver_private.rs 31-107). -/
def newConstraint (warm : Bool) (dtRatio : F) (c : ContactIn F) : Option (VConstraint F × PConstraint F) :=
  let go (q1 : ManifoldPoint F) (v2 : VPoint F) (l2 : Vec2 F) (n : Nat) : VConstraint F × PConstraint F :=
    ({ p1 := newPoint warm dtRatio q1, p2 := v2, normal := ⟨0, 0⟩, normalMass := ⟨⟨0, 0⟩, ⟨0, 0⟩⟩
       k := ⟨⟨0, 0⟩, ⟨0, 0⟩⟩, indexA := c.indexA, indexB := c.indexB
       invMassA := c.invMassA, invMassB := c.invMassB, invIA := c.invIA, invIB := c.invIB
       friction := c.friction, restitution := c.restitution, threshold := c.threshold
       tangentSpeed := c.tangentSpeed, pointCount := n },
     { lp1 := q1.localPoint, lp2 := l2, localNormal := c.manifold.localNormal, localPoint := c.manifold.localPoint
       indexA := c.indexA, indexB := c.indexB, invMassA := c.invMassA, invMassB := c.invMassB
       localCenterA := c.localCenterA, localCenterB := c.localCenterB, invIA := c.invIA, invIB := c.invIB
       type := c.manifold.type, radiusA := c.radiusA, radiusB := c.radiusB, pointCount := n })
  match c.manifold.points with
  | [q1] => some (go q1 VPoint.zero ⟨0, 0⟩ 1)
  | [q1, q2] => some (go q1 (newPoint warm dtRatio q2) q2.localPoint 2)
  | _ => none

/-- The transform of a body at a solver position (b2_contact_solver_private.rs 148-153). -/
def Pos.xf [Elem F] (p : Pos F) (localCenter : Vec2 F) : Xf F :=
  let q := Rot.ofAngle p.a
  ⟨p.c - q.mulV localCenter, q⟩

/-- Relative velocity of the bodies at a constraint point: `v_b + w_b × r_b - v_a - w_a × r_a`. -/
def relVel (a b : Vel F) (rA rB : Vec2 F) : Vec2 F := b.v + crossSV b.w rB - a.v - crossSV a.w rA

/-- The diagonal entry of the effective mass along a direction: `m_a + m_b + i_a ra² + i_b rb²`. -/
def effMass (mA mB iA iB : F) (rA rB n : Vec2 F) : F :=
  mA + mB + iA * cross rA n * cross rA n + iB * cross rB n * cross rB n

/-- One turn of the inner loop of `initialize_velocity_constraints` (b2_contact_solver_private.rs 161-191): `x` is the
world manifold's point. -/
def initPoint (vc : VConstraint F) (x cA cB : Vec2 F) (a b : Vel F) (p : VPoint F) : VPoint F :=
  let rA := x - cA
  let rB := x - cB
  let kNormal := effMass vc.invMassA vc.invMassB vc.invIA vc.invIB rA rB vc.normal
  let tangent := crossVS vc.normal 1
  let kTangent := effMass vc.invMassA vc.invMassB vc.invIA vc.invIB rA rB tangent
  let vRel := dot vc.normal (relVel a b rA rB)
  { p with
    rA := rA, rB := rB
    normalMass := if kNormal > 0 then 1 / kNormal else 0
    tangentMass := if kTangent > 0 then 1 / kTangent else 0
    velocityBias := if vRel < -vc.threshold then -vc.restitution * vRel else 0 }

/-- Preparing the block solver (b2_contact_solver_private.rs 195-224). -/
def prepareBlock (vc : VConstraint F) : VConstraint F :=
  let rn1A := cross vc.p1.rA vc.normal
  let rn1B := cross vc.p1.rB vc.normal
  let rn2A := cross vc.p2.rA vc.normal
  let rn2B := cross vc.p2.rB vc.normal
  let k11 := vc.invMassA + vc.invMassB + vc.invIA * rn1A * rn1A + vc.invIB * rn1B * rn1B
  let k22 := vc.invMassA + vc.invMassB + vc.invIA * rn2A * rn2A + vc.invIB * rn2B * rn2B
  let k12 := vc.invMassA + vc.invMassB + vc.invIA * rn1A * rn2A + vc.invIB * rn1B * rn2B
  if k11 * k11 < 1000 * (k11 * k22 - k12 * k12) then
    let k : Mat22 F := ⟨⟨k11, k12⟩, ⟨k12, k22⟩⟩
    { vc with k := k, normalMass := k.inverse }
  else { vc with pointCount := 1 }

/-- One turn of the loop of `initialize_velocity_constraints` (b2_contact_solver_private.rs 116-225), for one contact
with manifold `m`. -/
def initConstraint [Elem F] (block : Bool) (m : Manifold F) (pos : Arr (Pos F)) (vel : Arr (Vel F))
    (vc : VConstraint F) (pc : PConstraint F) : Option (VConstraint F) := do
  let pA ← pos.get vc.indexA
  let vA ← vel.get vc.indexA
  let pB ← pos.get vc.indexB
  let vB ← vel.get vc.indexB
  if m.points.isEmpty then none else
  let wm ← worldManifold m (pA.xf pc.localCenterA) pc.radiusA (pB.xf pc.localCenterB) pc.radiusB
  let vc := { vc with normal := wm.normal }
  let p1 := initPoint vc wm.p1 pA.c pB.c vA vB vc.p1
  match vc.pointCount with
  | 1 => some { vc with p1 := p1 }
  | 2 =>
    let vc := { vc with p1 := p1, p2 := initPoint vc wm.p2 pA.c pB.c vA vB vc.p2 }
    some (if block then prepareBlock vc else vc)
  | _ => none

/-! ## Velocities -/

/-- The velocities of the two bodies of a constraint, held in local variables. -/
structure Two (F : Type) where
  a : Vel F
  b : Vel F

/-- Applying an impulse at a constraint point: `v_a -= m_a p`, `w_a -= i_a (r_a × p)`, `v_b += m_b p`,
`w_b += i_b (r_b × p)`. -/
def push (mA mB iA iB : F) (rA rB p : Vec2 F) (s : Two F) : Two F :=
  ⟨⟨s.a.v - mA * p, s.a.w - iA * cross rA p⟩, ⟨s.b.v + mB * p, s.b.w + iB * cross rB p⟩⟩

/-- `push` with the masses of a constraint. -/
def VConstraint.push (vc : VConstraint F) (q : VPoint F) (p : Vec2 F) (s : Two F) : Two F :=
  B2.push vc.invMassA vc.invMassB vc.invIA vc.invIB q.rA q.rB p s

/-- Reading the velocities of a constraint's bodies. -/
def VConstraint.load (vc : VConstraint F) (vel : Arr (Vel F)) : Option (Two F) := do
  let a ← vel.get vc.indexA
  let b ← vel.get vc.indexB
  return ⟨a, b⟩
/-- Writing the velocities of a constraint's bodies back. -/
def VConstraint.store (vc : VConstraint F) (vel : Arr (Vel F)) (s : Two F) : Option (Arr (Vel F)) := do
  let vel ← vel.set vc.indexA s.a
  vel.set vc.indexB s.b

/-- The inner loop body of `warm_start` (b2_contact_solver_private.rs 251-259). -/
def warmPoint (vc : VConstraint F) (q : VPoint F) (s : Two F) : Two F :=
  vc.push q (q.normalImpulse * vc.normal + q.tangentImpulse * crossVS vc.normal 1) s

/-- One turn of the loop of `warm_start` (b2_contact_solver_private.rs 231-265). -/
def warmConstraint (vc : VConstraint F) (vel : Arr (Vel F)) : Option (Arr (Vel F)) := do
  let s ← vc.load vel
  match vc.pointCount with
  | 0 => vc.store vel s
  | 1 => vc.store vel (warmPoint vc vc.p1 s)
  | 2 => vc.store vel (warmPoint vc vc.p2 (warmPoint vc vc.p1 s))
  | _ => none

/-- `warm_start` (b2_contact_solver_private.rs 228-266). -/
def warmStart (l : List (VConstraint F)) (vel : Arr (Vel F)) : Option (Arr (Vel F)) :=
  l.foldlM (fun vel vc => warmConstraint vc vel) vel

/-- One turn of the friction loop (b2_contact_solver_private.rs 295-320). -/
def solveTangent (vc : VConstraint F) (q : VPoint F) (s : Two F) : VPoint F × Two F :=
  let tangent := crossVS vc.normal 1
  let dv := relVel s.a s.b q.rA q.rB
  let vt := dot dv tangent - vc.tangentSpeed
  let lambda := q.tangentMass * (-vt)
  let maxFriction := vc.friction * q.normalImpulse
  let newImpulse := b2clamp (q.tangentImpulse + lambda) (-maxFriction) maxFriction
  let lambda := newImpulse - q.tangentImpulse
  ({ q with tangentImpulse := newImpulse }, vc.push q (lambda * tangent) s)

/-- One turn of the non-penetration loop (b2_contact_solver_private.rs 326-349). -/
def solveNormal (vc : VConstraint F) (q : VPoint F) (s : Two F) : VPoint F × Two F :=
  let dv := relVel s.a s.b q.rA q.rB
  let vn := dot dv vc.normal
  let lambda := -q.normalMass * (vn - q.velocityBias)
  let newImpulse := b2max (q.normalImpulse + lambda) 0
  let lambda := newImpulse - q.normalImpulse
  ({ q with normalImpulse := newImpulse }, vc.push q (lambda * vc.normal) s)

/-- The total enumeration of the block solver (b2_contact_solver_private.rs 411-575): the accumulated impulse of the
first case that applies; `none` is "no solution, give up". -/
def enumerate (vc : VConstraint F) (m1 m2 : F) (b : Vec2 F) : Option (Vec2 F) :=
  let x := -(vc.normalMass.mulV b)
  if x.x ≥ 0 ∧ x.y ≥ 0 then some x
  else
    let x1 := -m1 * b.x
    if x1 ≥ 0 ∧ vc.k.ex.y * x1 + b.y ≥ 0 then some ⟨x1, 0⟩
    else
      let x2 := -m2 * b.y
      if x2 ≥ 0 ∧ vc.k.ey.x * x2 + b.x ≥ 0 then some ⟨0, x2⟩
      else if b.x ≥ 0 ∧ b.y ≥ 0 then some ⟨0, 0⟩
      else none

/-- The block solver (b2_contact_solver_private.rs 351-576). -/
def solveBlock (vc : VConstraint F) (q1 q2 : VPoint F) (s : Two F) : Option (VPoint F × VPoint F × Two F) :=
  let a : Vec2 F := ⟨q1.normalImpulse, q2.normalImpulse⟩
  if a.x ≥ 0 ∧ a.y ≥ 0 then
    let vn1 := dot (relVel s.a s.b q1.rA q1.rB) vc.normal
    let vn2 := dot (relVel s.a s.b q2.rA q2.rB) vc.normal
    let b : Vec2 F := ⟨vn1 - q1.velocityBias, vn2 - q2.velocityBias⟩ - vc.k.mulV a
    match enumerate vc q1.normalMass q2.normalMass b with
    | none => some (q1, q2, s)
    | some x =>
      let d := x - a
      let P1 := d.x * vc.normal
      let P2 := d.y * vc.normal
      some ({ q1 with normalImpulse := x.x }, { q2 with normalImpulse := x.y },
        ⟨⟨s.a.v - vc.invMassA * (P1 + P2), s.a.w - vc.invIA * (cross q1.rA P1 + cross q2.rA P2)⟩,
         ⟨s.b.v + vc.invMassB * (P1 + P2), s.b.w + vc.invIB * (cross q1.rB P1 + cross q2.rB P2)⟩⟩)
  else none

/-- The work of `solve_velocity_constraints` on one contact, on the local copies of the velocities
(b2_contact_solver_private.rs 287-576). -/
def solveContact (block : Bool) (vc : VConstraint F) (s : Two F) : Option (VConstraint F × Two F) :=
  match vc.pointCount with
  | 1 =>
    let t := solveTangent vc vc.p1 s
    let n := solveNormal vc t.1 t.2
    some ({ vc with p1 := n.1 }, n.2)
  | 2 =>
    let t1 := solveTangent vc vc.p1 s
    let t2 := solveTangent vc vc.p2 t1.2
    if block then do
      let r ← solveBlock vc t1.1 t2.1 t2.2
      return ({ vc with p1 := r.1, p2 := r.2.1 }, r.2.2)
    else
      let n1 := solveNormal vc t1.1 t2.2
      let n2 := solveNormal vc t2.1 n1.2
      some ({ vc with p1 := n1.1, p2 := n2.1 }, n2.2)
  | _ => none

/-- One turn of the loop of `solve_velocity_constraints` (b2_contact_solver_private.rs 270-582). -/
def solveConstraint (block : Bool) (vc : VConstraint F) (vel : Arr (Vel F)) : Option (VConstraint F × Arr (Vel F)) := do
  let s ← vc.load vel
  let r ← solveContact block vc s
  let vel ← vc.store vel r.2
  return (r.1, vel)

/-- `solve_velocity_constraints` (b2_contact_solver_private.rs 268-583). -/
def solveVelocities (block : Bool) : List (VConstraint F) → Arr (Vel F) → Option (List (VConstraint F) × Arr (Vel F))
  | [], vel => some ([], vel)
  | vc :: l, vel => do
    let r ← solveConstraint block vc vel
    let r' ← solveVelocities block l r.2
    return (r.1 :: r'.1, r'.2)

/-- `store_impulses` (b2_contact_solver_private.rs 585-598), for one contact; the manifold's array has two points. -/
def storeInto (vc : VConstraint F) (m : Manifold F) : Manifold F :=
  let put (q : VPoint F) (p : ManifoldPoint F) : ManifoldPoint F :=
    { p with normalImpulse := q.normalImpulse, tangentImpulse := q.tangentImpulse }
  { m with points := m.points.mapIdx fun j p =>
      if j < vc.pointCount then (if j = 0 then put vc.p1 p else put vc.p2 p) else p }

/-- The velocity iterations (b2_island_private.rs 207-215). What the joints do to the velocities in iteration `i` is
`joints i`, any function. -/
def iterate (block : Bool) (joints : Nat → Arr (Vel F) → Arr (Vel F)) :
    Nat → Nat → List (VConstraint F) → Arr (Vel F) → Option (List (VConstraint F) × Arr (Vel F))
  | _, 0, l, vel => some (l, vel)
  | i, n + 1, l, vel => do
    let r ← solveVelocities block l (joints i vel)
    iterate block joints (i + 1) n r.1 r.2

/-- What is handed to the contact solver of the velocity phase of an island: whether warm starting is on, `dt_ratio`,
the number of velocity iterations, `G_BLOCK_SOLVE`, and what the joints do to the velocities when they are
initialized and in every iteration. -/
structure VelocityPhase (F : Type) where
  warm : Bool
  dtRatio : F
  iterations : Nat
  block : Bool
  jointInit : Arr (Vel F) → Arr (Vel F)
  joints : Nat → Arr (Vel F) → Arr (Vel F)

/-- Constructing the solver and initializing its velocity constraints (b2_contact_solver_private.rs 20-226). -/
def setUp [Elem F] (warm : Bool) (dtRatio : F) (block : Bool) (pos : Arr (Pos F)) (vel : Arr (Vel F))
    (contacts : List (ContactIn F)) : Option (List (VConstraint F × PConstraint F)) :=
  contacts.mapM fun c => do
    let r ← newConstraint warm dtRatio c
    let vc ← initConstraint block c.manifold pos vel r.1 r.2
    return (vc, r.2)

/-- Warm starting, if it is on (b2_island_private.rs 193-196). -/
def warmIf (warm : Bool) (l : List (VConstraint F)) (vel : Arr (Vel F)) : Option (Arr (Vel F)) :=
  if warm then warmStart l vel else some vel

/-- The velocity phase of the solution of an island (b2_island_private.rs 181-218): the final constraints, the final
velocities, and the contacts' manifolds with the impulses stored. -/
def velocityPhase [Elem F] (ph : VelocityPhase F) (pos : Arr (Pos F)) (vel : Arr (Vel F)) (contacts : List (ContactIn F)) :
    Option (List (VConstraint F) × Arr (Vel F) × List (Manifold F)) := do
  let cs ← setUp ph.warm ph.dtRatio ph.block pos vel contacts
  let vcs := cs.map (·.1)
  let vel ← warmIf ph.warm vcs vel
  let vel := ph.jointInit vel
  let r ← iterate ph.block ph.joints 0 ph.iterations vcs vel
  return (r.1, r.2, (r.1.zip contacts).map fun x => storeInto x.1 x.2.manifold)

/-! ## Positions -/

/-- `B2positionSolverManifold` (b2_contact_solver_private.rs 645-650). -/
structure PSM (F : Type) where
  normal : Vec2 F
  point : Vec2 F
  separation : F

/-- `B2positionSolverManifold::initialize` (b2_contact_solver_private.rs 600-642). `lp` is `local_points[index]`; the
circles case reads `local_points[0]` whatever the index. -/
def psm [Elem F] (pc : PConstraint F) (xfA xfB : Xf F) (lp : Vec2 F) : PSM F :=
  match pc.type with
  | .circles =>
    let pointA := xfA.mulV pc.localPoint
    let pointB := xfB.mulV pc.lp1
    let normal := (pointB - pointA).normalize.1
    { normal := normal, point := (1 / 2 : F) * (pointA + pointB)
      separation := dot (pointB - pointA) normal - pc.radiusA - pc.radiusB }
  | .faceA =>
    let normal := xfA.q.mulV pc.localNormal
    let planePoint := xfA.mulV pc.localPoint
    let clipPoint := xfB.mulV lp
    { normal := normal, separation := dot (clipPoint - planePoint) normal - pc.radiusA - pc.radiusB
      point := clipPoint }
  | .faceB =>
    let normal := xfB.q.mulV pc.localNormal
    let planePoint := xfB.mulV pc.localPoint
    let clipPoint := xfA.mulV lp
    { normal := -normal, separation := dot (clipPoint - planePoint) normal - pc.radiusA - pc.radiusB
      point := clipPoint }

/-- The positions of the two bodies of a constraint, held in local variables, and `min_separation`. -/
structure TwoPos (F : Type) where
  a : Pos F
  b : Pos F
  minSep : F

/-- The inverse masses a position constraint is solved with. -/
structure InvMasses (F : Type) where
  mA : F
  iA : F
  mB : F
  iB : F

/-- One turn of the inner loop of `solve_position_constraints` (b2_contact_solver_private.rs 678-718) and of
`solve_toiposition_constraints` (771-811), which differ in the factor `beta` and the masses. -/
def solvePoint [Elem F] (beta : F) (pc : PConstraint F) (ms : InvMasses F) (lp : Vec2 F) (s : TwoPos F) : TwoPos F :=
  let m := psm pc (s.a.xf pc.localCenterA) (s.b.xf pc.localCenterB) lp
  let rA := m.point - s.a.c
  let rB := m.point - s.b.c
  let c := b2clamp (beta * (m.separation + linearSlop)) (-maxLinearCorrection) 0
  let k := effMass ms.mA ms.mB ms.iA ms.iB rA rB m.normal
  let impulse := if k > 0 then -c / k else 0
  let p := impulse * m.normal
  { a := ⟨s.a.c - ms.mA * p, s.a.a - ms.iA * cross rA p⟩
    b := ⟨s.b.c + ms.mB * p, s.b.a + ms.iB * cross rB p⟩
    minSep := b2min s.minSep m.separation }

/-- The inner loops of `solve_position_constraints` (b2_contact_solver_private.rs 678-718) and
`solve_toiposition_constraints` (771-811); `local_points` has two entries. -/
def solvePoints [Elem F] (beta : F) (pc : PConstraint F) (ms : InvMasses F) (s : TwoPos F) : Option (TwoPos F) :=
  match pc.pointCount with
  | 0 => some s
  | 1 => some (solvePoint beta pc ms pc.lp1 s)
  | 2 => some (solvePoint beta pc ms pc.lp2 (solvePoint beta pc ms pc.lp1 s))
  | _ => none

/-- One turn of the outer loops of `solve_position_constraints` (b2_contact_solver_private.rs 657-725) and
`solve_toiposition_constraints` (738-818). -/
def solvePosConstraint [Elem F] (beta : F) (pc : PConstraint F) (ms : InvMasses F) (minSep : F) (pos : Arr (Pos F)) :
    Option (F × Arr (Pos F)) := do
  let a ← pos.get pc.indexA
  let b ← pos.get pc.indexB
  let s ← solvePoints beta pc ms ⟨a, b, minSep⟩
  let pos ← pos.set pc.indexA s.a
  let pos ← pos.set pc.indexB s.b
  return (s.minSep, pos)

/-- The loop over the position constraints; `masses` gives the inverse masses to use. -/
def solvePosLoop [Elem F] (beta : F) (masses : PConstraint F → InvMasses F) :
    List (PConstraint F) → F → Arr (Pos F) → Option (F × Arr (Pos F))
  | [], minSep, pos => some (minSep, pos)
  | pc :: l, minSep, pos => do
    let r ← solvePosConstraint beta pc (masses pc) minSep pos
    solvePosLoop beta masses l r.1 r.2

/-- `solve_position_constraints` (b2_contact_solver_private.rs 653-730). -/
def solvePositions [Elem F] (l : List (PConstraint F)) (pos : Arr (Pos F)) : Option (Bool × Arr (Pos F)) := do
  let r ← solvePosLoop baumgarte (fun pc => ⟨pc.invMassA, pc.invIA, pc.invMassB, pc.invIB⟩) l 0 pos
  return (decide (r.1 ≥ -3 * linearSlop), r.2)

/-- The masses of `solve_toiposition_constraints` (b2_contact_solver_private.rs 748-762). -/
def toiMasses (toiA toiB : Nat) (pc : PConstraint F) : InvMasses F :=
  let a := pc.indexA = toiA ∨ pc.indexA = toiB
  let b := pc.indexB = toiA ∨ pc.indexB = toiB
  ⟨if a then pc.invMassA else 0, if a then pc.invIA else 0, if b then pc.invMassB else 0, if b then pc.invIB else 0⟩

/-- `solve_toiposition_constraints` (b2_contact_solver_private.rs 733-823). -/
def solveToiPositions [Elem F] (toiA toiB : Nat) (l : List (PConstraint F)) (pos : Arr (Pos F)) :
    Option (Bool × Arr (Pos F)) := do
  let r ← solvePosLoop toiBaumgarte (toiMasses toiA toiB) l 0 pos
  return (decide (r.1 ≥ -(3 / 2) * linearSlop), r.2)

end
end B2
