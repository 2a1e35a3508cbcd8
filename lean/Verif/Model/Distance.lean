import Verif.Model.Shapes

/-!
# Distance between shapes and shape casts

Models `src/b2_distance.rs` and `src/private/collision/b2_distance.rs` (GJK). The counters `B2_GJK_CALLS`, `B2_GJK_ITERS` and
`B2_GJK_MAX_ITERS` are write-only statistics and left out. A failed `b2_assert` and an index out of range are `none`.
-/
namespace B2
section
variable {F : Type} [Field F] [LinearOrder F]

/-- `B2distanceProxy` (b2_distance.rs 14-21); `m_buffer` is scratch space of `set_shape` and left out. -/
structure Proxy (F : Type) where
  vertices : List (Vec2 F)
  radius : F

/-- `set_shape` (private b2_distance.rs 13-44). -/
def Proxy.ofShape (s : Shape F) (index : Nat) : Option (Proxy F) :=
  match s with
  | .circle c => some ⟨[c.p], c.radius⟩
  | .polygon p => some ⟨p.verts, p.radius⟩
  | .chain c => do
    let v1 ← c.vertices[index]?
    let v2 ← if index + 1 < c.vertices.length then c.vertices[index + 1]? else c.vertices[0]?
    return ⟨[v1, v2], c.radius⟩
  | .edge e => some ⟨[e.v1, e.v2], e.radius⟩

/-- The loop of `get_support` (b2_distance.rs 143-155) from index `i` on, with the best index so far and its value. -/
def supportGo (d : Vec2 F) : List (Vec2 F) → Nat → Nat → F → Nat
  | [], _, best, _ => best
  | v :: vs, i, best, value =>
    if dot v d > value then supportGo d vs (i + 1) i (dot v d) else supportGo d vs (i + 1) best value

/-- `get_support` (b2_distance.rs 143-155). -/
def Proxy.support (p : Proxy F) (d : Vec2 F) : Option Nat :=
  match p.vertices with
  | [] => none
  | v :: vs => some (supportGo d vs 1 0 (dot v d))

/-- `get_vertex` (b2_distance.rs 138-141). -/
def Proxy.vertex (p : Proxy F) (i : Nat) : Option (Vec2 F) := p.vertices[i]?

/-- `B2simplexVertex` (private b2_distance.rs 51-64). -/
structure SimplexVertex (F : Type) where
  wA : Vec2 F
  wB : Vec2 F
  w : Vec2 F
  a : F
  indexA : Nat
  indexB : Nat

/-- `B2simplex` (private b2_distance.rs 66-70): the three slots and how many of them are in use. -/
structure Simplex (F : Type) where
  v0 : SimplexVertex F
  v1 : SimplexVertex F
  v2 : SimplexVertex F
  count : Nat

/-- The default vertex and simplex. -/
def SimplexVertex.zero : SimplexVertex F := ⟨⟨0, 0⟩, ⟨0, 0⟩, ⟨0, 0⟩, 0, 0, 0⟩
def Simplex.zero : Simplex F := ⟨.zero, .zero, .zero, 0⟩

/-- Writing slot `i` of `m_v`. -/
def Simplex.put (s : Simplex F) (i : Nat) (v : SimplexVertex F) : Option (Simplex F) :=
  match i with
  | 0 => some { s with v0 := v }
  | 1 => some { s with v1 := v }
  | 2 => some { s with v2 := v }
  | _ => none

/-- Reading slot `i` of `m_v`. -/
def Simplex.get (s : Simplex F) (i : Nat) : Option (SimplexVertex F) :=
  match i with
  | 0 => some s.v0
  | 1 => some s.v1
  | 2 => some s.v2
  | _ => none

/-- `B2simplexCache` (b2_distance.rs 57-66): the pairs of indices in place of two arrays. -/
structure Cache (F : Type) where
  metric : F
  count : Nat
  i0 : Nat × Nat
  i1 : Nat × Nat
  i2 : Nat × Nat

/-- Slot of the simplex for a pair of vertex indices, with given barycentric coordinate (private b2_distance.rs 88-98, 114-123,
480-484). -/
def makeVertex (pA pB : Proxy F) (xA xB : Xf F) (i : Nat × Nat) (a : F) : Option (SimplexVertex F) := do
  let lA ← pA.vertex i.1
  let lB ← pB.vertex i.2
  let wA := xA.mulV lA
  let wB := xB.mulV lB
  return ⟨wA, wB, wB - wA, a, i.1, i.2⟩

/-- `get_metric` (private b2_distance.rs 213-234). -/
def Simplex.metric [Elem F] (s : Simplex F) : Option F :=
  match s.count with
  | 1 => some 0
  | 2 => some (distanceV s.v0.w s.v1.w)
  | 3 => some (cross (s.v1.w - s.v0.w) (s.v2.w - s.v0.w))
  | _ => none

/-- The loop of `read_cache` that fills the slots (private b2_distance.rs 85-98). -/
def Simplex.fill (s : Simplex F) (c : Cache F) (pA pB : Proxy F) (xA xB : Xf F) : Option (Simplex F) :=
  match c.count with
  | 0 => some { s with count := 0 }
  | 1 => do
    let a ← makeVertex pA pB xA xB c.i0 0
    return { s with v0 := a, count := 1 }
  | 2 => do
    let a ← makeVertex pA pB xA xB c.i0 0
    let b ← makeVertex pA pB xA xB c.i1 0
    return { s with v0 := a, v1 := b, count := 2 }
  | 3 => do
    let a ← makeVertex pA pB xA xB c.i0 0
    let b ← makeVertex pA pB xA xB c.i1 0
    let d ← makeVertex pA pB xA xB c.i2 0
    return { v0 := a, v1 := b, v2 := d, count := 3 }
  | _ => none

/-- The check of the metric in `read_cache` (private b2_distance.rs 100-109). -/
def Simplex.flush [Elem F] (s : Simplex F) (metric1 : F) : Option (Simplex F) :=
  if s.count > 1 then do
    let metric2 ← s.metric
    if metric2 < 1 / 2 * metric1 ∨ 2 * metric1 < metric2 ∨ metric2 < epsilon then return { s with count := 0 } else return s
  else some s

/-- `read_cache` (private b2_distance.rs 72-124). -/
def Simplex.readCache [Elem F] (s : Simplex F) (c : Cache F) (pA pB : Proxy F) (xA xB : Xf F) : Option (Simplex F) := do
  let s ← s.fill c pA pB xA xB
  let s ← s.flush c.metric
  if s.count = 0 then do
    let a ← makeVertex pA pB xA xB (0, 0) 1
    return { s with v0 := a, count := 1 }
  else return s

/-- The pair of indices of a slot, as stored in the cache (`as u8`, private b2_distance.rs 131-132). -/
def SimplexVertex.u8 (v : SimplexVertex F) : Nat × Nat := (v.indexA % 256, v.indexB % 256)

/-- `write_cache` (private b2_distance.rs 126-134). -/
def Simplex.writeCache [Elem F] (s : Simplex F) (c : Cache F) : Option (Cache F) := do
  let m ← s.metric
  return { metric := m, count := s.count
           i0 := if 0 < s.count then s.v0.u8 else c.i0
           i1 := if 1 < s.count then s.v1.u8 else c.i1
           i2 := if 2 < s.count then s.v2.u8 else c.i2 }

/-- `get_search_direction` (private b2_distance.rs 136-160). -/
def Simplex.direction (s : Simplex F) : Option (Vec2 F) :=
  match s.count with
  | 1 => some (-s.v0.w)
  | 2 =>
    let e12 := s.v1.w - s.v0.w
    if cross e12 (-s.v0.w) > 0 then some (crossSV 1 e12) else some (crossVS e12 1)
  | _ => none

/-- `get_closest_point` (private b2_distance.rs 162-185). -/
def Simplex.closest (s : Simplex F) : Option (Vec2 F) :=
  match s.count with
  | 1 => some s.v0.w
  | 2 => some (s.v0.a * s.v0.w + s.v1.a * s.v1.w)
  | 3 => some ⟨0, 0⟩
  | _ => none

/-- `get_witness_points` (private b2_distance.rs 187-211). -/
def Simplex.witness (s : Simplex F) : Option (Vec2 F × Vec2 F) :=
  match s.count with
  | 1 => some (s.v0.wA, s.v0.wB)
  | 2 => some (s.v0.a * s.v0.wA + s.v1.a * s.v1.wA, s.v0.a * s.v0.wB + s.v1.a * s.v1.wB)
  | 3 =>
    let p := s.v0.a * s.v0.wA + s.v1.a * s.v1.wA + s.v2.a * s.v2.wA
    some (p, p)
  | _ => none

/-- `b2_simplex_solve2` (private b2_distance.rs 267-296). -/
def Simplex.solve2 (s : Simplex F) : Simplex F :=
  let w1 := s.v0.w
  let w2 := s.v1.w
  let e12 := w2 - w1
  let d12_2 := -dot w1 e12
  let d12_1 := dot w2 e12
  if d12_2 ≤ 0 then { s with v0 := { s.v0 with a := 1 }, count := 1 }
  else if d12_1 ≤ 0 then { s with v0 := { s.v1 with a := 1 }, v1 := { s.v1 with a := 1 }, count := 1 }
  else
    let inv := 1 / (d12_1 + d12_2)
    { s with v0 := { s.v0 with a := d12_1 * inv }, v1 := { s.v1 with a := d12_2 * inv }, count := 2 }

/-- `b2_simplex_solve3` (private b2_distance.rs 303-402). -/
def Simplex.solve3 (s : Simplex F) : Simplex F :=
  let w1 := s.v0.w
  let w2 := s.v1.w
  let w3 := s.v2.w
  let e12 := w2 - w1
  let d12_1 := dot w2 e12
  let d12_2 := -dot w1 e12
  let e13 := w3 - w1
  let d13_1 := dot w3 e13
  let d13_2 := -dot w1 e13
  let e23 := w3 - w2
  let d23_1 := dot w3 e23
  let d23_2 := -dot w2 e23
  let n123 := cross e12 e13
  let d123_1 := n123 * cross w2 w3
  let d123_2 := n123 * cross w3 w1
  let d123_3 := n123 * cross w1 w2
  if d12_2 ≤ 0 ∧ d13_2 ≤ 0 then { s with v0 := { s.v0 with a := 1 }, count := 1 }
  else if d12_1 > 0 ∧ d12_2 > 0 ∧ d123_3 ≤ 0 then
    let inv := 1 / (d12_1 + d12_2)
    { s with v0 := { s.v0 with a := d12_1 * inv }, v1 := { s.v1 with a := d12_2 * inv }, count := 2 }
  else if d13_1 > 0 ∧ d13_2 > 0 ∧ d123_2 ≤ 0 then
    let inv := 1 / (d13_1 + d13_2)
    { v0 := { s.v0 with a := d13_1 * inv }, v1 := { s.v2 with a := d13_2 * inv }, v2 := { s.v2 with a := d13_2 * inv }, count := 2 }
  else if d12_1 ≤ 0 ∧ d23_2 ≤ 0 then
    { s with v0 := { s.v1 with a := 1 }, v1 := { s.v1 with a := 1 }, count := 1 }
  else if d13_1 ≤ 0 ∧ d23_1 ≤ 0 then
    { s with v0 := { s.v2 with a := 1 }, v2 := { s.v2 with a := 1 }, count := 1 }
  else if d23_1 > 0 ∧ d23_2 > 0 ∧ d123_1 ≤ 0 then
    let inv := 1 / (d23_1 + d23_2)
    { v0 := { s.v2 with a := d23_2 * inv }, v1 := { s.v1 with a := d23_1 * inv }, v2 := { s.v2 with a := d23_2 * inv }, count := 2 }
  else
    let inv := 1 / (d123_1 + d123_2 + d123_3)
    { v0 := { s.v0 with a := d123_1 * inv }, v1 := { s.v1 with a := d123_2 * inv }, v2 := { s.v2 with a := d123_3 * inv }, count := 3 }

/-- The `match` on the number of vertices (private b2_distance.rs 445-457, 627-638). -/
def Simplex.solve (s : Simplex F) : Option (Simplex F) :=
  match s.count with
  | 1 => some s
  | 2 => some s.solve2
  | 3 => some s.solve3
  | _ => none

/-- The pairs of indices of the slots in use: `save_a`, `save_b` (private b2_distance.rs 437-443). -/
def Simplex.pairs (s : Simplex F) : List (Nat × Nat) :=
  ([s.v0, s.v1, s.v2].take s.count).map fun v => (v.indexA, v.indexB)

/-- The support point of a direction, as a new slot (private b2_distance.rs 478-484); the barycentric coordinate is what the
slot held before. -/
def newVertex (pA pB : Proxy F) (xA xB : Xf F) (d : Vec2 F) (a : F) : Option (SimplexVertex F) := do
  let iA ← pA.support (xA.q.mulTV (-d))
  let iB ← pB.support (xB.q.mulTV d)
  makeVertex pA pB xA xB (iA, iB) a

/-- The main loop (private b2_distance.rs 436-503), with the number of iterations left and done. -/
def gjkLoop (pA pB : Proxy F) (xA xB : Xf F) : Nat → Nat → Simplex F → Option (Simplex F × Nat)
  | 0, iter, s => some (s, iter)
  | n + 1, iter, s => do
    let saved := s.pairs
    let s ← s.solve
    if s.count = 3 then return (s, iter)
    else do
      let d ← s.direction
      if d.lengthSquared < epsilon * epsilon then return (s, iter)
      else do
        let old ← s.get s.count
        let v ← newVertex pA pB xA xB d old.a
        let s ← s.put s.count v
        if (v.indexA, v.indexB) ∈ saved then return (s, iter + 1)
        else gjkLoop pA pB xA xB n (iter + 1) { s with count := s.count + 1 }

/-- `K_MAX_ITERS` (private b2_distance.rs 427, 575). -/
def gjkMaxIters : Nat := 20

/-- `B2distanceInput` (b2_distance.rs 71-78). -/
structure DistanceInput (F : Type) where
  proxyA : Proxy F
  proxyB : Proxy F
  xfA : Xf F
  xfB : Xf F
  useRadii : Bool

/-- `B2distanceOutput` (b2_distance.rs 81-90). -/
structure DistanceOutput (F : Type) where
  pointA : Vec2 F
  pointB : Vec2 F
  distance : F
  iterations : Nat

/-- Moving the witness points to the surfaces (private b2_distance.rs 513-535). -/
def DistanceOutput.applyRadii [Elem F] (o : DistanceOutput F) (rA rB : F) : DistanceOutput F :=
  if o.distance > rA + rB ∧ o.distance > epsilon then
    let normal := (o.pointB - o.pointA).normalize.1
    { o with distance := o.distance - (rA + rB), pointA := o.pointA + rA * normal, pointB := o.pointB - rB * normal }
  else
    let p := (1 / 2 : F) * (o.pointA + o.pointB)
    { o with pointA := p, pointB := p, distance := 0 }

/-- `b2_distance_fn` (private b2_distance.rs 404-536). -/
def distance [Elem F] (c : Cache F) (i : DistanceInput F) : Option (DistanceOutput F × Cache F) := do
  let s ← (Simplex.zero : Simplex F).readCache c i.proxyA i.proxyB i.xfA i.xfB
  let (s, iter) ← gjkLoop i.proxyA i.proxyB i.xfA i.xfB gjkMaxIters 0 s
  let p ← s.witness
  let o : DistanceOutput F := ⟨p.1, p.2, distanceV p.1 p.2, iter⟩
  let c ← s.writeCache c
  return (if i.useRadii then o.applyRadii i.proxyA.radius i.proxyB.radius else o, c)

/-- `B2shapeCastInput` (b2_distance.rs 106-112). -/
structure ShapeCastInput (F : Type) where
  proxyA : Proxy F
  proxyB : Proxy F
  xfA : Xf F
  xfB : Xf F
  translationB : Vec2 F

/-- `B2shapeCastOutput` (b2_distance.rs 115-121). -/
structure ShapeCastOutput (F : Type) where
  point : Vec2 F
  normal : Vec2 F
  lambda : F
  iterations : Nat

/-- What the loop of the shape cast keeps. -/
structure CastState (F : Type) where
  s : Simplex F
  v : Vec2 F
  n : Vec2 F
  lambda : F

/-- The plane of the support point (private b2_distance.rs 597-613): `none` is the answer "no hit". -/
def castPlane (sigma : F) (r v p : Vec2 F) (st : CastState F) : Option (CastState F) :=
  let vp := dot v p
  let vr := dot v r
  if vp - sigma > st.lambda * vr then
    if vr ≤ 0 then none
    else
      let lambda := (vp - sigma) / vr
      if lambda > 1 then none
      else some { s := { st.s with count := 0 }, v := v, n := -v, lambda := lambda }
  else some { st with v := v }

/-- The slot of the simplex of a shape cast (private b2_distance.rs 615-625): the shapes are exchanged and the second is moved. -/
def castVertex (st : CastState F) (r wA wB : Vec2 F) (iA iB : Nat) : SimplexVertex F :=
  ⟨wB + st.lambda * r, wA, wA - (wB + st.lambda * r), 1, iB, iA⟩

/-- The main loop (private b2_distance.rs 577-650): the outer `none` is a panic, the inner one the answer "no hit". -/
def castLoop [Elem F] (pA pB : Proxy F) (xA xB : Xf F) (r : Vec2 F) (sigma tolerance : F) :
    Nat → Nat → CastState F → Option (Option (CastState F × Nat))
  | 0, iter, st => some (some (st, iter))
  | n + 1, iter, st =>
    if st.v.length - sigma > tolerance then
      if st.s.count < 3 then do
        let iA ← pA.support (xA.q.mulTV (-st.v))
        let wA ← (pA.vertex iA).map xA.mulV
        let iB ← pB.support (xB.q.mulTV st.v)
        let wB ← (pB.vertex iB).map xB.mulV
        match castPlane sigma r st.v.normalize.1 (wA - wB) st with
        | none => return none
        | some st => do
          let s ← st.s.put st.s.count (castVertex st r wA wB iA iB)
          let s ← { s with count := s.count + 1 }.solve
          if s.count = 3 then return none
          else do
            let v ← s.closest
            castLoop pA pB xA xB r sigma tolerance n (iter + 1) { st with s := s, v := v }
      else none
    else some (some (st, iter))

/-- The start of a shape cast (private b2_distance.rs 549-571). -/
def castStart (i : ShapeCastInput F) : Option (CastState F) := do
  let iA ← i.proxyA.support (i.xfA.q.mulTV (-i.translationB))
  let wA ← (i.proxyA.vertex iA).map i.xfA.mulV
  let iB ← i.proxyB.support (i.xfB.q.mulTV i.translationB)
  let wB ← (i.proxyB.vertex iB).map i.xfB.mulV
  return ⟨.zero, wA - wB, ⟨0, 0⟩, 0⟩

/-- The radii of a shape cast and its target distance (private b2_distance.rs 549-551, 571). -/
def castRadius (r : F) : F := b2max r polygonRadius
def castSigma (i : ShapeCastInput F) : F :=
  b2max polygonRadius (castRadius i.proxyA.radius + castRadius i.proxyB.radius - polygonRadius)

/-- `b2_shape_cast` (private b2_distance.rs 540-673): the output if the answer is `true`, nothing if it is `false` (the output
is then left with its initial values and the number of iterations). -/
def shapeCast [Elem F] (i : ShapeCastInput F) : Option (Option (ShapeCastOutput F)) := do
  let st ← castStart i
  let tolerance := 1 / 2 * linearSlop
  match ← castLoop i.proxyA i.proxyB i.xfA i.xfB i.translationB (castSigma i) tolerance gjkMaxIters 0 st with
  | none => return none
  | some (st, iter) =>
    if iter = 0 then return none
    else do
      let p ← st.s.witness
      let n := if st.v.lengthSquared > 0 then (-st.v).normalize.1 else st.n
      return some ⟨p.2 + castRadius i.proxyA.radius * n, n, st.lambda, iter⟩

end
end B2
