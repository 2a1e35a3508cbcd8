import Verif.Model.Distance

/-!
# Time of impact

Models `src/b2_time_of_impact.rs` and `src/private/collision/b2_time_of_impact.rs`. The counters (`B2_TOI_CALLS` and so on) and the timer are
write-only statistics and left out.
-/
namespace B2
section
variable {F : Type} [Field F] [LinearOrder F] [Elem F]

/-- `B2separationFunctionType` (private b2_time_of_impact.rs 10-14). -/
inductive SepType | points | faceA | faceB
deriving DecidableEq

/-- `B2separationFunction` (private b2_time_of_impact.rs 17-25), without the proxies and sweeps, which are passed along. -/
structure SepFn (F : Type) where
  type : SepType
  localPoint : Vec2 F
  axis : Vec2 F

/-- `B2toiinput` (b2_time_of_impact.rs). -/
structure ToiInput (F : Type) where
  proxyA : Proxy F
  proxyB : Proxy F
  sweepA : Sweep F
  sweepB : Sweep F
  tMax : F

/-- `B2toioutputState` (b2_time_of_impact.rs); `EUnknown` is the initial value and always overwritten. -/
inductive ToiState | failed | overlapped | touching | separated
deriving DecidableEq

/-- `B2toioutput` (b2_time_of_impact.rs). -/
structure ToiOutput (F : Type) where
  state : ToiState
  t : F

/-- `B2separationFunction::initialize` (private b2_time_of_impact.rs 29-113). The separation it also computes is not used by the caller and
left out but for the sign of the axis. -/
def sepInit (c : Cache F) (i : ToiInput F) (t1 : F) : Option (SepFn F) :=
  let xA := i.sweepA.getTransform t1
  let xB := i.sweepB.getTransform t1
  if 0 < c.count ∧ c.count < 3 then
    if c.count = 1 then do
      let lA ← i.proxyA.vertex c.i0.1
      let lB ← i.proxyB.vertex c.i0.2
      return ⟨.points, ⟨0, 0⟩, (xB.mulV lB - xA.mulV lA).normalize.1⟩
    else if c.i0.1 = c.i1.1 then do
      let lB1 ← i.proxyB.vertex c.i0.2
      let lB2 ← i.proxyB.vertex c.i1.2
      let axis := (crossVS (lB2 - lB1) 1).normalize.1
      let normal := xB.q.mulV axis
      let localPoint := (1 / 2 : F) * (lB1 + lB2)
      let pointB := xB.mulV localPoint
      let lA ← i.proxyA.vertex c.i0.1
      let pointA := xA.mulV lA
      let s := dot (pointA - pointB) normal
      return ⟨.faceB, localPoint, if s < 0 then -axis else axis⟩
    else do
      let lA1 ← i.proxyA.vertex c.i0.1
      let lA2 ← i.proxyA.vertex c.i1.1
      let axis := (crossVS (lA2 - lA1) 1).normalize.1
      let normal := xA.q.mulV axis
      let localPoint := (1 / 2 : F) * (lA1 + lA2)
      let pointA := xA.mulV localPoint
      let lB ← i.proxyB.vertex c.i0.2
      let pointB := xB.mulV lB
      let s := dot (pointB - pointA) normal
      return ⟨.faceA, localPoint, if s < 0 then -axis else axis⟩
  else none

/-- `evaluate` (private b2_time_of_impact.rs 180-228). -/
def sepEval (f : SepFn F) (i : ToiInput F) (indexA indexB : Nat) (t : F) : Option F :=
  let xA := i.sweepA.getTransform t
  let xB := i.sweepB.getTransform t
  match f.type with
  | .points => do
    let lA ← i.proxyA.vertex indexA
    let lB ← i.proxyB.vertex indexB
    return dot (xB.mulV lB - xA.mulV lA) f.axis
  | .faceA => do
    let lB ← i.proxyB.vertex indexB
    return dot (xB.mulV lB - xA.mulV f.localPoint) (xA.q.mulV f.axis)
  | .faceB => do
    let lA ← i.proxyA.vertex indexA
    return dot (xA.mulV lA - xB.mulV f.localPoint) (xB.q.mulV f.axis)

/-- The two indices of `find_min_separation` (private b2_time_of_impact.rs 116-178). The index that the code sets to -1 is not read later and
is 0 here. -/
def sepIndices (f : SepFn F) (i : ToiInput F) (t : F) : Option (Nat × Nat) :=
  let xA := i.sweepA.getTransform t
  let xB := i.sweepB.getTransform t
  match f.type with
  | .points => do
    let iA ← i.proxyA.support (xA.q.mulTV f.axis)
    let iB ← i.proxyB.support (xB.q.mulTV (-f.axis))
    return (iA, iB)
  | .faceA => do
    let iB ← i.proxyB.support (xB.q.mulTV (-(xA.q.mulV f.axis)))
    return (0, iB)
  | .faceB => do
    let iA ← i.proxyA.support (xA.q.mulTV (-(xB.q.mulV f.axis)))
    return (iA, 0)

/-- `find_min_separation` (private b2_time_of_impact.rs 116-178): the indices and the separation, which is computed as in `evaluate`. -/
def sepMin (f : SepFn F) (i : ToiInput F) (t : F) : Option ((Nat × Nat) × F) := do
  let ij ← sepIndices f i t
  let s ← sepEval f i ij.1 ij.2 t
  return (ij, s)

/-- The root finder (private b2_time_of_impact.rs 382-428), with the number of iterations left and done. The answer is the new `t2`, or nothing
if it ran out of iterations and `t2` stays. -/
def rootLoop (eval : F → Option F) (target tolerance : F) : Nat → Nat → F → F → F → F → Option (Option F)
  | 0, _, _, _, _, _ => some none
  | n + 1, k, a1, a2, s1, s2 => do
    let t := if k % 2 = 1 then a1 + (target - s1) * (a2 - a1) / (s2 - s1) else 1 / 2 * (a1 + a2)
    let s ← eval t
    if |s - target| < tolerance then return some t
    else if s > target then rootLoop eval target tolerance n (k + 1) t a2 s s2
    else rootLoop eval target tolerance n (k + 1) a1 t s1 s

/-- What the inner loop comes to: it is done with an output, or `t1` has a new value. -/
inductive PushResult (F : Type)
  | done (o : ToiOutput F)
  | advance (t1 : F)

/-- The bound of 50 iterations of the root finder (private b2_time_of_impact.rs 425). -/
def maxRootIters : Nat := 50

/-- The inner loop (private b2_time_of_impact.rs 333-440) on one separating axis, with the number of turns left. -/
def pushLoop (f : SepFn F) (i : ToiInput F) (target tolerance t1 : F) : Nat → F → Option (PushResult F)
  | 0, _ => some (.advance t1)
  | n + 1, t2 => do
    let (ij, s2) ← sepMin f i t2
    if s2 > target + tolerance then return .done ⟨.separated, i.tMax⟩
    else if s2 > target - tolerance then return .advance t2
    else do
      let s1 ← sepEval f i ij.1 ij.2 t1
      if s1 < target - tolerance then return .done ⟨.failed, t1⟩
      else if s1 ≤ target + tolerance then return .done ⟨.touching, t1⟩
      else do
        let r ← rootLoop (sepEval f i ij.1 ij.2) target tolerance maxRootIters 0 t1 t2 s1 s2
        pushLoop f i target tolerance t1 n (r.getD t2)

/-- The outer loop (private b2_time_of_impact.rs 269-458), with the number of turns left. -/
def toiLoopGo (i : ToiInput F) (target tolerance : F) : Nat → F → Cache F → Option (ToiOutput F)
  | 0, t1, _ => some ⟨.failed, t1⟩
  | n + 1, t1, c => do
    let (o, c) ← distance c ⟨i.proxyA, i.proxyB, i.sweepA.getTransform t1, i.sweepB.getTransform t1, false⟩
    if o.distance ≤ 0 then return ⟨.overlapped, 0⟩
    else if o.distance < target + tolerance then return ⟨.touching, t1⟩
    else do
      let f ← sepInit c i t1
      match ← pushLoop f i target tolerance t1 maxPolygonVertices i.tMax with
      | .done o => return o
      | .advance t1 => toiLoopGo i target tolerance n t1 c

/-- `K_MAX_ITERATIONS` (private b2_time_of_impact.rs 257). -/
def maxToiIters : Nat := 20

/-- The target distance (private b2_time_of_impact.rs 252). -/
def toiTarget (i : ToiInput F) : F := b2max linearSlop (i.proxyA.radius + i.proxyB.radius - 3 * linearSlop)
/-- The tolerance (private b2_time_of_impact.rs 253). -/
def toiTolerance : F := 1 / 4 * linearSlop

/-- `b2_time_of_impact` (private b2_time_of_impact.rs 232-463). -/
def timeOfImpact (i : ToiInput F) : Option (ToiOutput F) :=
  if toiTarget i > toiTolerance then
    toiLoopGo { i with sweepA := i.sweepA.normalize, sweepB := i.sweepB.normalize } (toiTarget i) toiTolerance maxToiIters 0 ⟨0, 0, (0, 0), (0, 0), (0, 0)⟩
  else none

end
end B2
