import Verif.Spec.WorldMotion
import Verif.Spec.Distance
import Verif.Model.Engine

/-!
Specification for continuous collision in a step: where a body is at a time of the step, which contacts are watched, and what it means
that no impact is left.
-/
namespace B2.Spec
variable {F : Type} [Field F] [LinearOrder F] [Elem F]

/-- The centre of mass and the angle at time `tau` of a step (0 its beginning, 1 its end) of a body that moves along its sweep. -/
def centerAt (s : Sweep F) (tau : F) : Vec2 F := s.c + ((1 - tau) / (1 - s.alpha0)) * (s.c0 - s.c)
def angleAt (s : Sweep F) (tau : F) : F := s.a + ((1 - tau) / (1 - s.alpha0)) * (s.a0 - s.a)

/-- The frame of the body at that time. -/
def placeAt (s : Sweep F) (tau : F) : Xf F :=
  let q := Rot.ofAngle (angleAt s tau)
  ⟨centerAt s tau - q.mulV s.localCenter, q⟩

/-- Two sweeps are of the same motion: they only start from different times of it. -/
structure SameCourse (s s' : Sweep F) : Prop where
  center : s.localCenter = s'.localCenter
  path : ∀ tau, centerAt s tau = centerAt s' tau
  turn : ∀ tau, angleAt s tau = angleAt s' tau

/-- The contacts for which the engine looks for impacts: enabled, with at most eight impacts so far, between solid fixtures, of a body that is awake
and not static, and of a body that is a bullet or not dynamic. -/
structure Watched (w : World F) (k bA bB : Nat) : Prop where
  enabled : (w.cst k).enabled = true
  count : (w.cst k).toiCount ≤ maxSubSteps
  solid : w.sensorContact k = false
  active : w.active bA = true ∨ w.active bB = true
  collides : w.collides bA = true ∨ w.collides bB = true

/-- The shapes `pA` and `pB` of the bodies `bA` and `bB` do not run into each other on the courses of the two bodies before the very end of the step:
a search for their first impact, begun at a time `tau0` not after the time from which the sweeps of the dynamic ones of the two bodies count, did
not find one. -/
def NoImpactLeft (w : World F) (bA bB : Nat) (pA pB : _root_.B2.Proxy F) : Prop :=
  ∃ (tau0 : F) (sA sB : Sweep F) (o : ToiOutput F), tau0 < 1 ∧ sA.alpha0 = tau0 ∧ sB.alpha0 = tau0 ∧
    SameCourse sA (w.phys bA).sweep ∧ SameCourse sB (w.phys bB).sweep ∧
    (w.typeOf bA = .dynamic → tau0 ≤ (w.phys bA).sweep.alpha0) ∧ (w.typeOf bB = .dynamic → tau0 ≤ (w.phys bB).sweep.alpha0) ∧
    timeOfImpact ⟨pA, pB, sA, sB, 1⟩ = some o ∧ (o.state = .touching → 1 - 10 * epsilon < tau0 + (1 - tau0) * o.t)

/-- The points of a shape, without its radius, at time `tau` of a step. -/
def PointsAt (s : Sweep F) (p : _root_.B2.Proxy F) (tau : F) : Vec2 F → Prop := Hull (placedAt p (placeAt s tau))

/-- The two shapes are more than `d` apart, or have a common point, at time `tau` of the step. -/
def ApartAt (sA sB : Sweep F) (pA pB : _root_.B2.Proxy F) (d tau : F) : Prop := ∀ x y, PointsAt sA pA tau x → PointsAt sB pB tau y → d * d < dist2 x y
def MeetAt (sA sB : Sweep F) (pA pB : _root_.B2.Proxy F) (tau : F) : Prop := ∃ x, PointsAt sA pA tau x ∧ PointsAt sB pB tau x

/-- The search for the first impact of the two shapes runs out of iterations. -/
def GivesUp (sA sB : Sweep F) (pA pB : _root_.B2.Proxy F) : Prop := ∃ o, timeOfImpact ⟨pA, pB, sA, sB, 1⟩ = some o ∧ o.state = .failed

end B2.Spec
