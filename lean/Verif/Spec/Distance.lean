import Verif.Model.TimeOfImpact
import Verif.Spec.Shapes

/-!
# What distance computations and shape casts are about
-/
namespace B2.Spec
variable {F : Type} [Field F] [LinearOrder F]

/-- The vertices of a proxy where the frame `x` puts them. -/
def placedAt (p : Proxy F) (x : Xf F) : List (Vec2 F) := p.vertices.map (place x)

/-- The cache is empty or speaks of vertices that are there (as a cache does that was written for these proxies). -/
def CacheFits (c : Cache F) (nA nB : Nat) : Prop :=
  c.count ≤ 3 ∧ (0 < c.count → c.i0.1 < nA ∧ c.i0.2 < nB) ∧ (1 < c.count → c.i1.1 < nA ∧ c.i1.2 < nB) ∧ (2 < c.count → c.i2.1 < nA ∧ c.i2.2 < nB)

/-- The difference of a vertex of the second and a vertex of the first shape. -/
def Diff (pA pB : Proxy F) (xA xB : Xf F) (x : Vec2 F) : Prop :=
  ∃ lA ∈ pA.vertices, ∃ lB ∈ pB.vertices, x = place xB lB - place xA lA

/-- Different differences are not closer than the machine epsilon. -/
def Spread (i : DistanceInput F) : Prop :=
  ∀ x y, Diff i.proxyA i.proxyB i.xfA i.xfB x → Diff i.proxyA i.proxyB i.xfA i.xfB y → x ≠ y → epsilon * epsilon ≤ dist2 x y

/-- The frame moved by `d`. -/
def moved (x : Xf F) (d : Vec2 F) : Xf F := { x with p := x.p + d }

/-- When the second shape has moved by the fraction `t` of its translation, the two hulls are more than `sigma` apart. -/
def Apart (i : ShapeCastInput F) (sigma t : F) : Prop :=
  ∀ x y, Hull (placedAt i.proxyA i.xfA) x → Hull (placedAt i.proxyB (moved i.xfB (t * i.translationB))) y → sigma * sigma < dist2 x y

/-- When the second shape has moved by the fraction `t` of its translation, points of the two hulls are within `d`. -/
def Within (i : ShapeCastInput F) (d t : F) : Prop :=
  ∃ x y, Hull (placedAt i.proxyA i.xfA) x ∧ Hull (placedAt i.proxyB (moved i.xfB (t * i.translationB))) y ∧ dist2 x y ≤ d * d

/-- The distance at which a shape cast stops: the sum of the radii, each at least the polygon radius, less one polygon radius. -/
def castTarget (i : ShapeCastInput F) : F :=
  max polygonRadius (max i.proxyA.radius polygonRadius + max i.proxyB.radius polygonRadius - polygonRadius)

end B2.Spec

namespace B2.Spec
variable {F : Type} [Field F] [LinearOrder F] [Elem F]

/-- The distance query at time `t` of the two motions. -/
def queryAt (i : ToiInput F) (t : F) : DistanceInput F :=
  ⟨i.proxyA, i.proxyB, i.sweepA.getTransform t, i.sweepB.getTransform t, false⟩

/-- The points of the two shapes (without radii) at time `t`. -/
def HullA (i : ToiInput F) (t : F) : Vec2 F → Prop := Hull (placedAt i.proxyA (i.sweepA.getTransform t))
def HullB (i : ToiInput F) (t : F) : Vec2 F → Prop := Hull (placedAt i.proxyB (i.sweepB.getTransform t))

/-- Distance queries for these shapes at any time of the motion stop before their iteration limit and are exact unless they find
a distance below the machine epsilon, as C64 has it for spread-out shapes. -/
def DistanceGood (i : ToiInput F) : Prop :=
  ∀ t c o c', 0 ≤ t → t ≤ i.tMax → CacheFits c i.proxyA.vertices.length i.proxyB.vertices.length → distance c (queryAt i t) = some (o, c') →
    o.iterations < 20 ∧ ((∀ x y, HullA i t x → HullB i t y → dist2 o.pointA o.pointB ≤ dist2 x y) ∨ dist2 o.pointA o.pointB < epsilon * epsilon)

/-- At time `t` the two shapes are more than `d` apart. -/
def FarAt (i : ToiInput F) (d t : F) : Prop := ∀ x y, HullA i t x → HullB i t y → d * d < dist2 x y

/-- At time `t` the two shapes have points within `d`. -/
def NearAt (i : ToiInput F) (d t : F) : Prop := ∃ x y, HullA i t x ∧ HullB i t y ∧ dist2 x y ≤ d * d

/-- The distance that the time of impact aims at: the sum of the radii less three slops, at least one slop. -/
def impactTarget (i : ToiInput F) : F := max linearSlop (i.proxyA.radius + i.proxyB.radius - 3 * linearSlop)

/-- The vertices are not closer to each other than the machine epsilon, and there are at most 256 of them. -/
def VerticesApart (p : Proxy F) : Prop :=
  p.vertices.length ≤ 256 ∧ ∀ (j k : Nat) (a b : Vec2 F), j ≠ k → p.vertices[j]? = some a → p.vertices[k]? = some b → epsilon * epsilon ≤ dist2 a b

end B2.Spec
