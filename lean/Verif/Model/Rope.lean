import Verif.Model.Math

/-!
# Rope

Models `src/b2_rope.rs` and `src/private/rope/b2_rope.rs` (without `draw`, which only reads). `none` is a panic (failed assertion,
index out of range) or a division by zero: where the code divides by a number that can vanish and goes on with an infinity or a NaN,
the model stops.
-/
namespace B2

/-- The elementary functions of the rope: `f32::exp`, `b2_atan2`. -/
class RopeElem (F : Type) where
  exp : F → F
  atan2 : F → F → F

/-- `B2stretchingModel` (b2_rope.rs 6-10). -/
inductive StretchModel where | pbd | xpbd
deriving DecidableEq

/-- `B2bendingModel` (b2_rope.rs 12-20). -/
inductive BendModel where | springAngle | pbdAngle | xpbdAngle | pbdDistance | pbdHeight | pbdTriangle
deriving DecidableEq

/-- `B2ropeTuning` (b2_rope.rs 22-36). `warm_start` is never read. -/
structure RopeTuning (F : Type) where
  stretching : StretchModel
  bending : BendModel
  damping : F
  stretchStiffness : F
  stretchHertz : F
  stretchDamping : F
  bendStiffness : F
  bendHertz : F
  bendDamping : F
  isometric : Bool
  fixedEffectiveMass : Bool

/-- `B2ropeDefVertices` and `B2ropeDef` (b2_rope.rs 57-69). -/
structure RopeDefVertex (F : Type) where
  position : Vec2 F
  mass : F
structure RopeDef (F : Type) where
  position : Vec2 F
  vertices : List (RopeDefVertex F)
  gravity : Vec2 F
  tuning : RopeTuning F

/-- `B2ropeStretch` (b2_rope.rs 82-92). -/
structure RopeStretch (F : Type) where
  i1 : Nat
  i2 : Nat
  invMass1 : F
  invMass2 : F
  l : F
  lambda : F
  spring : F
  damper : F

/-- `B2ropeBend` (b2_rope.rs 94-110). -/
structure RopeBend (F : Type) where
  i1 : Nat
  i2 : Nat
  i3 : Nat
  invMass1 : F
  invMass2 : F
  invMass3 : F
  invEffectiveMass : F
  lambda : F
  l1 : F
  l2 : F
  alpha1 : F
  alpha2 : F
  spring : F
  damper : F

/-- `B2ropePositions` (b2_rope.rs 112-119). -/
structure RopeVertex (F : Type) where
  bind : Vec2 F
  p : Vec2 F
  p0 : Vec2 F
  v : Vec2 F
  invMass : F

/-- `B2rope` (b2_rope.rs 121-135). The counts of constraints are the lengths of the lists. -/
structure Rope (F : Type) where
  position : Vec2 F
  vertices : List (RopeVertex F)
  stretches : List (RopeStretch F)
  bends : List (RopeBend F)
  gravity : Vec2 F
  tuning : RopeTuning F

section
variable {F : Type} [Field F] [LinearOrder F] [IsStrictOrderedRing F] [Elem F] [RopeElem F]

/-- Division; by zero there is no result. -/
def fdiv (a b : F) : Option F := if b = 0 then none else some (a / b)

namespace Rope

/-- `default` (private/rope/b2_rope.rs 6-17) with the default tuning (b2_rope.rs 38-55). -/
def new : Rope F :=
  ⟨⟨0, 0⟩, [], [], [], ⟨0, 0⟩, ⟨.pbd, .pbdAngle, 0, 1, 0, 0, 1 / 2, 1, 0, false, false⟩⟩

/-- A default entry made by `resize`. -/
def blankBend : RopeBend F := ⟨0, 0, 0, 0, 0, 0, 0, 0, 0, 0, 0, 0, 0, 0⟩

/-- A vertex in `create` (private/rope/b2_rope.rs 27-42). -/
def createVertex (position : Vec2 F) (d : RopeDefVertex F) : RopeVertex F :=
  ⟨d.position, d.position + position, d.position + position, ⟨0, 0⟩, if d.mass > 0 then 1 / d.mass else 0⟩

/-- A stretch constraint in `create` (private/rope/b2_rope.rs 54-68). -/
def createStretch (vs : List (RopeVertex F)) (i : Nat) : Option (RopeStretch F) := do
  let x1 ← vs[i]?
  let x2 ← vs[i + 1]?
  return ⟨i, i + 1, x1.invMass, x2.invMass, distanceV x1.p x2.p, 0, 0, 0⟩

/-- A bending constraint in `create` (private/rope/b2_rope.rs 70-117); `c` is the entry found there. -/
def createBend (vs : List (RopeVertex F)) (c : RopeBend F) (i : Nat) : Option (RopeBend F) := do
  let x1 ← vs[i]?
  let x2 ← vs[i + 1]?
  let x3 ← vs[i + 2]?
  let c := { c with i1 := i, i2 := i + 1, i3 := i + 2, invMass1 := x1.invMass, invMass2 := x2.invMass, invMass3 := x3.invMass,
                    invEffectiveMass := 0, l1 := distanceV x1.p x2.p, l2 := distanceV x2.p x3.p, lambda := 0 }
  let e1 := x2.p - x1.p
  let e2 := x3.p - x2.p
  let l1sqr := e1.lengthSquared
  let l2sqr := e2.lengthSquared
  if l1sqr * l2sqr = 0 then return c
  else
    let jd1 := (-1 / l1sqr) * e1.skew
    let jd2 := (1 / l2sqr) * e2.skew
    let j1 := -jd1
    let j2 := jd1 - jd2
    let j3 := jd2
    let c := { c with invEffectiveMass := c.invMass1 * dot j1 j1 + c.invMass2 * dot j2 j2 + c.invMass3 * dot j3 j3 }
    let r := x3.p - x1.p
    let rr := r.lengthSquared
    if rr = 0 then return c
    else return { c with alpha1 := dot e2 r / rr, alpha2 := dot e1 r / rr }

/-- `set_tuning` for a bending constraint (private/rope/b2_rope.rs 131-156). -/
def tuneBend (t : RopeTuning F) (c : RopeBend F) : RopeBend F :=
  let omega := 2 * Elem.pi * t.bendHertz
  let l1sqr := c.l1 * c.l1
  let l2sqr := c.l2 * c.l2
  if l1sqr * l2sqr = 0 then { c with spring := 0, damper := 0 }
  else
    let j2 := 1 / c.l1 + 1 / c.l2
    let sum := c.invMass1 / l1sqr + c.invMass2 * j2 * j2 + c.invMass3 / l2sqr
    if sum = 0 then { c with spring := 0, damper := 0 }
    else
      let mass := 1 / sum
      { c with spring := mass * omega * omega, damper := 2 * mass * t.bendDamping * omega }

/-- `set_tuning` for a stretch constraint (private/rope/b2_rope.rs 157-169). -/
def tuneStretch (t : RopeTuning F) (c : RopeStretch F) : RopeStretch F :=
  let omega := 2 * Elem.pi * t.stretchHertz
  let sum := c.invMass1 + c.invMass2
  if sum = 0 then c
  else
    let mass := 1 / sum
    { c with spring := mass * omega * omega, damper := 2 * mass * t.stretchDamping * omega }

/-- `set_tuning` (private/rope/b2_rope.rs 126-170). -/
def setTuning (r : Rope F) (t : RopeTuning F) : Rope F :=
  { r with tuning := t, bends := r.bends.map (tuneBend t), stretches := r.stretches.map (tuneStretch t) }

/-- `create` (private/rope/b2_rope.rs 19-124). -/
def create (r : Rope F) (d : RopeDef F) : Option (Rope F) :=
  if d.vertices.length < 3 then none
  else do
    let vs := d.vertices.map (createVertex d.position)
    let ss ← (List.range (vs.length - 1)).mapM (createStretch vs)
    let bs ← (List.range (vs.length - 2)).mapM (fun i => createBend vs ((r.bends[i]?).getD blankBend) i)
    return setTuning ⟨d.position, vs, ss, bs, d.gravity, r.tuning⟩ d.tuning

/-- `reset` (private/rope/b2_rope.rs 248-264). -/
def reset (r : Rope F) (position : Vec2 F) : Rope F :=
  { r with
    position := position
    vertices := r.vertices.map fun x => { x with p := x.bind + position, p0 := x.bind + position, v := ⟨0, 0⟩ }
    bends := r.bends.map fun c => { c with lambda := 0 }
    stretches := r.stretches.map fun c => { c with lambda := 0 } }

/-- Writing a vertex's position. -/
def setP (vs : List (RopeVertex F)) (i : Nat) (p : Vec2 F) : List (RopeVertex F) := vs.modify i fun x => { x with p := p }
/-- Adding to a vertex's velocity. -/
def addV (vs : List (RopeVertex F)) (i : Nat) (d : Vec2 F) : List (RopeVertex F) := vs.modify i fun x => { x with v := x.v + d }

/-- One constraint of `solve_stretch_pbd` (private/rope/b2_rope.rs 266-290). -/
def stretchPbd (t : RopeTuning F) (vs : List (RopeVertex F)) (c : RopeStretch F) : Option (List (RopeVertex F)) := do
  let x1 ← vs[c.i1]?
  let x2 ← vs[c.i2]?
  let n := (x2.p - x1.p).normalize
  let d := n.1
  let l := n.2
  let sum := c.invMass1 + c.invMass2
  if sum = 0 then return vs
  else
    let s1 := c.invMass1 / sum
    let s2 := c.invMass2 / sum
    let vs := setP vs c.i1 (x1.p - (t.stretchStiffness * s1 * (c.l - l)) * d)
    return setP vs c.i2 (x2.p + (t.stretchStiffness * s2 * (c.l - l)) * d)

/-- One constraint of `solve_stretch_xpbd` (private/rope/b2_rope.rs 292-333). -/
def stretchXpbd (dt : F) (vs : List (RopeVertex F)) (c : RopeStretch F) : Option (List (RopeVertex F) × RopeStretch F) := do
  let x1 ← vs[c.i1]?
  let x2 ← vs[c.i2]?
  let dp1 := x1.p - x1.p0
  let dp2 := x2.p - x2.p0
  let n := (x2.p - x1.p).normalize
  let u := n.1
  let l := n.2
  let j1 := -u
  let j2 := u
  let sum := c.invMass1 + c.invMass2
  if sum = 0 then return (vs, c)
  else do
    let alpha ← fdiv 1 (c.spring * dt * dt)
    let beta := dt * dt * c.damper
    let sigma ← fdiv (alpha * beta) dt
    let c1 := l - c.l
    let cdot := dot j1 dp1 + dot j2 dp2
    let b := c1 + alpha * c.lambda + sigma * cdot
    let sum2 := (1 + sigma) * sum + alpha
    let impulse ← fdiv (-b) sum2
    let vs := setP vs c.i1 (x1.p + (c.invMass1 * impulse) * j1)
    let vs := setP vs c.i2 (x2.p + (c.invMass2 * impulse) * j2)
    return (vs, { c with lambda := c.lambda + impulse })

/-- The common part of the bending by angle: squared lengths (private/rope/b2_rope.rs 350-359, 412-421, 492-501). -/
def bendLengths (t : RopeTuning F) (c : RopeBend F) (d1 d2 : Vec2 F) : F × F :=
  if t.isometric then (c.l1 * c.l1, c.l2 * c.l2) else (d1.lengthSquared, d2.lengthSquared)

/-- The gradient of the angle (private/rope/b2_rope.rs 365-370, 432-437, 512-517). -/
def bendGradient (d1 d2 : Vec2 F) (l1sqr l2sqr : F) : Vec2 F × Vec2 F × Vec2 F :=
  let jd1 := (-1 / l1sqr) * d1.skew
  let jd2 := (1 / l2sqr) * d2.skew
  (-jd1, jd1 - jd2, jd2)

/-- The inverse effective mass (private/rope/b2_rope.rs 372-379, 439-446, 519-526). -/
def bendSum (t : RopeTuning F) (c : RopeBend F) (j1 j2 j3 : Vec2 F) : F :=
  if t.fixedEffectiveMass then c.invEffectiveMass
  else c.invMass1 * dot j1 j1 + c.invMass2 * dot j2 j2 + c.invMass3 * dot j3 j3

/-- Moving the three vertices of a bending constraint. -/
def bendMove (vs : List (RopeVertex F)) (c : RopeBend F) (x1 x2 x3 : RopeVertex F) (impulse : F) (j1 j2 j3 : Vec2 F) : List (RopeVertex F) :=
  let vs := setP vs c.i1 (x1.p + (c.invMass1 * impulse) * j1)
  let vs := setP vs c.i2 (x2.p + (c.invMass2 * impulse) * j2)
  setP vs c.i3 (x3.p + (c.invMass3 * impulse) * j3)

/-- One constraint of `solve_bend_pbd_angle` (private/rope/b2_rope.rs 335-395). -/
def bendPbdAngle (t : RopeTuning F) (vs : List (RopeVertex F)) (c : RopeBend F) : Option (List (RopeVertex F)) := do
  let x1 ← vs[c.i1]?
  let x2 ← vs[c.i2]?
  let x3 ← vs[c.i3]?
  let d1 := x2.p - x1.p
  let d2 := x3.p - x2.p
  let angle := RopeElem.atan2 (cross d1 d2) (dot d1 d2)
  let l := bendLengths t c d1 d2
  if l.1 * l.2 = 0 then return vs
  else do
    let j := bendGradient d1 d2 l.1 l.2
    let sum := bendSum t c j.1 j.2.1 j.2.2
    let sum := if sum = 0 then c.invEffectiveMass else sum
    let impulse ← fdiv (-t.bendStiffness * angle) sum
    return bendMove vs c x1 x2 x3 impulse j.1 j.2.1 j.2.2

/-- One constraint of `solve_bend_xpbd_angle` (private/rope/b2_rope.rs 397-474). -/
def bendXpbdAngle (t : RopeTuning F) (dt : F) (vs : List (RopeVertex F)) (c : RopeBend F) : Option (List (RopeVertex F) × RopeBend F) := do
  let x1 ← vs[c.i1]?
  let x2 ← vs[c.i2]?
  let x3 ← vs[c.i3]?
  let dp1 := x1.p - x1.p0
  let dp2 := x2.p - x2.p0
  let dp3 := x3.p - x3.p0
  let d1 := x2.p - x1.p
  let d2 := x3.p - x2.p
  let l := bendLengths t c d1 d2
  if l.1 * l.2 = 0 then return (vs, c)
  else do
    let angle := RopeElem.atan2 (cross d1 d2) (dot d1 d2)
    let j := bendGradient d1 d2 l.1 l.2
    let sum := bendSum t c j.1 j.2.1 j.2.2
    if sum = 0 then return (vs, c)
    else do
      let alpha ← fdiv 1 (c.spring * dt * dt)
      let beta := dt * dt * c.damper
      let sigma ← fdiv (alpha * beta) dt
      let cdot := dot j.1 dp1 + dot j.2.1 dp2 + dot j.2.2 dp3
      let b := angle + alpha * c.lambda + sigma * cdot
      let sum2 := (1 + sigma) * sum + alpha
      let impulse ← fdiv (-b) sum2
      return (bendMove vs c x1 x2 x3 impulse j.1 j.2.1 j.2.2, { c with lambda := c.lambda + impulse })

/-- One constraint of `apply_bend_forces` (private/rope/b2_rope.rs 476-546). -/
def bendForce (t : RopeTuning F) (dt : F) (vs : List (RopeVertex F)) (c : RopeBend F) : Option (List (RopeVertex F)) := do
  let omega := 2 * Elem.pi * t.bendHertz
  let x1 ← vs[c.i1]?
  let x2 ← vs[c.i2]?
  let x3 ← vs[c.i3]?
  let d1 := x2.p - x1.p
  let d2 := x3.p - x2.p
  let l := bendLengths t c d1 d2
  if l.1 * l.2 = 0 then return vs
  else
    let angle := RopeElem.atan2 (cross d1 d2) (dot d1 d2)
    let j := bendGradient d1 d2 l.1 l.2
    let sum := bendSum t c j.1 j.2.1 j.2.2
    if sum = 0 then return vs
    else
      let mass := 1 / sum
      let spring := mass * omega * omega
      let damper := 2 * mass * t.bendDamping * omega
      let cdot := dot j.1 x1.v + dot j.2.1 x2.v + dot j.2.2 x3.v
      let impulse := -dt * (spring * angle + damper * cdot)
      let vs := addV vs c.i1 ((c.invMass1 * impulse) * j.1)
      let vs := addV vs c.i2 ((c.invMass2 * impulse) * j.2.1)
      return addV vs c.i3 ((c.invMass3 * impulse) * j.2.2)

/-- One constraint of `solve_bend_pbd_distance` (private/rope/b2_rope.rs 548-575). -/
def bendPbdDistance (t : RopeTuning F) (vs : List (RopeVertex F)) (c : RopeBend F) : Option (List (RopeVertex F)) := do
  let x1 ← vs[c.i1]?
  let x3 ← vs[c.i3]?
  let n := (x3.p - x1.p).normalize
  let d := n.1
  let l := n.2
  let sum := c.invMass1 + c.invMass3
  if sum = 0 then return vs
  else
    let s1 := c.invMass1 / sum
    let s2 := c.invMass3 / sum
    let vs := setP vs c.i1 (x1.p - (t.bendStiffness * s1 * (c.l1 + c.l2 - l)) * d)
    return setP vs c.i3 (x3.p + (t.bendStiffness * s2 * (c.l1 + c.l2 - l)) * d)

/-- One constraint of `solve_bend_pbd_height` (private/rope/b2_rope.rs 577-620). -/
def bendPbdHeight (t : RopeTuning F) (vs : List (RopeVertex F)) (c : RopeBend F) : Option (List (RopeVertex F)) := do
  let x1 ← vs[c.i1]?
  let x2 ← vs[c.i2]?
  let x3 ← vs[c.i3]?
  let d : Vec2 F := c.alpha1 * x1.p + c.alpha2 * x3.p - x2.p
  let dLen := d.length
  if dLen = 0 then return vs
  else
    let dHat : Vec2 F := (1 / dLen) * d
    let j1 : Vec2 F := c.alpha1 * dHat
    let j2 : Vec2 F := -dHat
    let j3 : Vec2 F := c.alpha2 * dHat
    let sum := c.invMass1 * c.alpha1 * c.alpha1 + c.invMass2 + c.invMass3 * c.alpha2 * c.alpha2
    if sum = 0 then return vs
    else
      let mass := 1 / sum
      let impulse := -t.bendStiffness * mass * dLen
      return bendMove vs c x1 x2 x3 impulse j1 j2 j3

/-- One constraint of `solve_bend_pbd_triangle` (private/rope/b2_rope.rs 622-654). -/
def bendPbdTriangle (t : RopeTuning F) (vs : List (RopeVertex F)) (c : RopeBend F) : Option (List (RopeVertex F)) := do
  let x1 ← vs[c.i1]?
  let x2 ← vs[c.i2]?
  let x3 ← vs[c.i3]?
  let w := c.invMass1 + c.invMass3 + 2 * c.invMass2
  let invW ← fdiv t.bendStiffness w
  let d := x2.p - (1 / 3 : F) * (x1.p + x2.p + x3.p)
  let vs := setP vs c.i1 (x1.p + (2 * c.invMass1 * invW) * d)
  let vs := setP vs c.i2 (x2.p + (-4 * c.invMass2 * invW) * d)
  return setP vs c.i3 (x3.p + (2 * c.invMass3 * invW) * d)

/-- A loop over constraints that are themselves changed. -/
def loopM {C : Type} (f : List (RopeVertex F) → C → Option (List (RopeVertex F) × C)) :
    List (RopeVertex F) → List C → Option (List (RopeVertex F) × List C)
  | vs, [] => some (vs, [])
  | vs, c :: cs => do
    let r ← f vs c
    let s ← loopM f r.1 cs
    return (s.1, r.2 :: s.2)

/-- The bending part of an iteration of `step` (private/rope/b2_rope.rs 210-229). -/
def solveBends (dt : F) (r : Rope F) : Option (Rope F) :=
  match r.tuning.bending with
  | .springAngle => some r
  | .pbdAngle => do let vs ← r.bends.foldlM (bendPbdAngle r.tuning) r.vertices; return { r with vertices := vs }
  | .xpbdAngle =>
    if dt > 0 then do
      let s ← loopM (bendXpbdAngle r.tuning dt) r.vertices r.bends
      return { r with vertices := s.1, bends := s.2 }
    else none
  | .pbdDistance => do let vs ← r.bends.foldlM (bendPbdDistance r.tuning) r.vertices; return { r with vertices := vs }
  | .pbdHeight => do let vs ← r.bends.foldlM (bendPbdHeight r.tuning) r.vertices; return { r with vertices := vs }
  | .pbdTriangle => do let vs ← r.bends.foldlM (bendPbdTriangle r.tuning) r.vertices; return { r with vertices := vs }

/-- The stretching part of an iteration of `step` (private/rope/b2_rope.rs 231-238). -/
def solveStretches (dt : F) (r : Rope F) : Option (Rope F) :=
  match r.tuning.stretching with
  | .pbd => do let vs ← r.stretches.foldlM (stretchPbd r.tuning) r.vertices; return { r with vertices := vs }
  | .xpbd =>
    if dt > 0 then do
      let s ← loopM (stretchXpbd dt) r.vertices r.stretches
      return { r with vertices := s.1, stretches := s.2 }
    else none

/-- The iterations of `step` (private/rope/b2_rope.rs 209-239); a negative count is as zero. -/
def iterate (dt : F) : Nat → Rope F → Option (Rope F)
  | 0, r => some r
  | n + 1, r => do
    let r ← solveBends dt r
    let r ← solveStretches dt r
    iterate dt n r

/-- Gravity and damping, or the velocity of a fixed vertex (private/rope/b2_rope.rs 180-188). -/
def accelerate (dt d : F) (gravity position : Vec2 F) (x : RopeVertex F) : RopeVertex F :=
  if x.invMass > 0 then { x with v := d * x.v + dt * gravity }
  else { x with v := (1 / dt) * (x.bind + position - x.p0) }

/-- The bending forces, if they are chosen (private/rope/b2_rope.rs 190-193). -/
def applyBendForces (dt : F) (r : Rope F) : Option (Rope F) :=
  if r.tuning.bending = .springAngle then do
    let vs ← r.bends.foldlM (bendForce r.tuning dt) r.vertices
    return { r with vertices := vs }
  else some r

/-- `step` (private/rope/b2_rope.rs 172-246). -/
def step (r : Rope F) (dt : F) (iterations : Nat) (position : Vec2 F) : Option (Rope F) :=
  if dt = 0 then some r
  else do
    let d := RopeElem.exp (-dt * r.tuning.damping)
    let r := { r with vertices := r.vertices.map (accelerate dt d r.gravity position) }
    let r ← applyBendForces dt r
    let r := { r with
      bends := r.bends.map fun c => { c with lambda := 0 }
      stretches := r.stretches.map fun c => { c with lambda := 0 }
      vertices := r.vertices.map fun x => { x with p := x.p + dt * x.v } }
    let r ← iterate dt iterations r
    return { r with vertices := r.vertices.map fun x => { x with v := (1 / dt) * (x.p - x.p0), p0 := x.p } }

end Rope
end
end B2
