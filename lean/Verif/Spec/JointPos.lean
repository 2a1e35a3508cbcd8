import Verif.Spec.Joint

/-!
# What the position correction of a joint is for
-/
namespace B2

section
variable {F : Type} [Field F] [LinearOrder F]

/-- How far the point at `x` of body `i` gets when the body goes from its place in `pos` to its place in `pos'`, to first order:
as if the body moved there with constant velocities and the point kept the velocity it has at the start. For a body that does not turn
it is exact. -/
def drift (pos pos' : Arr (Pos F)) (i : Nat) (x : Vec2 F) : Vec2 F :=
  ⟨(pos'.at' i).c.x - (pos.at' i).c.x - ((pos'.at' i).a - (pos.at' i).a) * (x.y - (pos.at' i).c.y),
   (pos'.at' i).c.y - (pos.at' i).c.y + ((pos'.at' i).a - (pos.at' i).a) * (x.x - (pos.at' i).c.x)⟩

/-- The axes of a prismatic or wheel joint have length one and are perpendicular, as the constructors make them from a unit axis. -/
def Joint.Framed : Joint F → Prop
  | .prismatic j => j.localXAxisA.lengthSquared = 1 ∧ j.localYAxisA = j.localXAxisA.skew
  | .wheel j => j.localXAxisA.lengthSquared = 1 ∧ j.localYAxisA = j.localXAxisA.skew
  | .pulley j => 0 < j.ratio
  | _ => True

/-- The bodies have been moved from `pos` to `pos'` as the joint asks, to first order.

* A revolute joint (without limits, or between bodies that cannot turn) and a weld have brought the anchors together; a stiff weld also
  has restored the angle, exactly.
* A prismatic joint has brought the anchor of B to the line through the anchor of A, has restored the angle, and, where B was beyond
  a limit, has brought it to the limit. (Limits that are almost equal apart; see `c122_prismatic_false`.)
* A pulley has restored the length of the rope. -/
def Joint.Corrected [Elem F] (bodies : Nat → JBody F) (pos pos' : Arr (Pos F)) (j : Joint F) : Prop :=
  let a := bodies j.bodyA
  let b := bodies j.bodyB
  let xA := j.anchorA bodies pos
  let xB := j.anchorB bodies pos
  let dA := drift pos pos' a.index
  let dB := drift pos pos' b.index
  let world := (Rot.ofAngle (pos.at' a.index).a).mulV
  let canTurn := 0 < a.invI + b.invI
  let angle := (pos'.at' b.index).a - (pos'.at' a.index).a
  match j with
  | .revolute j => (j.enableLimit = true → ¬ canTurn) → xA + dA xA = xB + dB xB
  | .weld j => xA + dA xA = xB + dB xB ∧ (j.stiffness ≤ 0 → canTurn → angle = j.referenceAngle)
  | .prismatic j =>
      let apart := xB + dB xB - (xA + dA xB)
      let axis := world j.localXAxisA
      dot (world j.localYAxisA) apart = 0 ∧ (canTurn → angle = j.referenceAngle) ∧
        (j.enableLimit = true → 2 * linearSlop ≤ j.upperTranslation - j.lowerTranslation →
          (dot axis (xB - xA) ≤ j.lowerTranslation → dot axis apart = j.lowerTranslation) ∧
          (j.upperTranslation ≤ dot axis (xB - xA) → dot axis apart = j.upperTranslation))
  | .pulley j =>
      let lA := xA - j.groundAnchorA
      let lB := xB - j.groundAnchorB
      10 * linearSlop < lA.length → 10 * linearSlop < lB.length →
        lA.length + dot lA (dA xA) / lA.length + j.ratio * (lB.length + dot lB (dB xB) / lB.length) = j.constant
  | _ => True

/-- In `pos'`, which a correction has made of `pos`, bodies that cannot turn are exactly where the joint wants them.

* The anchors of a revolute joint and of a weld are at the same point.
* Body B of a prismatic or wheel joint is on the axis and between the limits. (Limits that are almost equal apart.)
* The length of a distance joint is between its limits.
* The rope of a pulley has its length, if no side alone was longer than the rope. -/
def Joint.Exact [Elem F] (bodies : Nat → JBody F) (pos pos' : Arr (Pos F)) (j : Joint F) : Prop :=
  let xA := j.anchorA bodies pos'
  let xB := j.anchorB bodies pos'
  let world := (Rot.ofAngle (pos.at' (bodies j.bodyA).index).a).mulV
  match j with
  | .revolute _ => xA = xB
  | .weld _ => xA = xB
  | .prismatic j => dot (world j.localYAxisA) (xB - xA) = 0 ∧
      (j.enableLimit = true → 2 * linearSlop ≤ j.upperTranslation - j.lowerTranslation →
        j.lowerTranslation ≤ dot (world j.localXAxisA) (xB - xA) ∧ dot (world j.localXAxisA) (xB - xA) ≤ j.upperTranslation)
  | .wheel j => dot (world j.localYAxisA) (xB - xA) = 0 ∧
      (j.enableLimit = true → 2 * linearSlop ≤ j.upperTranslation - j.lowerTranslation →
        j.lowerTranslation ≤ dot (world j.localXAxisA) (xB - xA) ∧ dot (world j.localXAxisA) (xB - xA) ≤ j.upperTranslation)
  | .distance k => 0 ≤ k.minLength → k.minLength ≤ k.maxLength → epsilon ≤ (j.anchorB bodies pos - j.anchorA bodies pos).length →
      k.minLength ≤ (xB - xA).length ∧ (xB - xA).length ≤ k.maxLength
  | .pulley k =>
      let lA := (j.anchorA bodies pos - k.groundAnchorA).length
      let lB := (j.anchorB bodies pos - k.groundAnchorB).length
      10 * linearSlop < lA → 10 * linearSlop < lB → lA ≤ k.constant → k.ratio * lB ≤ k.constant →
        (xA - k.groundAnchorA).length + k.ratio * (xB - k.groundAnchorB).length = k.constant
  | _ => True

/-- Where the bodies are the joint is satisfied, up to the tolerances of the engine. Nothing is said about revolute and wheel joints with
limits. -/
def Joint.Close [Elem F] (bodies : Nat → JBody F) (pos : Arr (Pos F)) (j : Joint F) : Prop :=
  let xA := j.anchorA bodies pos
  let xB := j.anchorB bodies pos
  let world := (Rot.ofAngle (pos.at' (bodies j.bodyA).index).a).mulV
  let angle := (pos.at' (bodies j.bodyB).index).a - (pos.at' (bodies j.bodyA).index).a
  match j with
  | .revolute _ => (xB - xA).length ≤ linearSlop
  | .weld j => (xB - xA).length ≤ linearSlop ∧ (j.stiffness ≤ 0 → |angle - j.referenceAngle| ≤ angularSlop)
  | .prismatic j => |dot (world j.localYAxisA) (xB - xA)| ≤ linearSlop ∧ |angle - j.referenceAngle| ≤ angularSlop ∧
      (j.enableLimit = true → j.lowerTranslation - linearSlop ≤ dot (world j.localXAxisA) (xB - xA) ∧
        dot (world j.localXAxisA) (xB - xA) ≤ j.upperTranslation + linearSlop)
  | .wheel j => |dot (world j.localYAxisA) (xB - xA)| ≤ linearSlop
  | .distance j => j.minLength - linearSlop < (xB - xA).length ∧ (xB - xA).length < j.maxLength + linearSlop
  | .pulley j => |j.constant - (xA - j.groundAnchorA).length - j.ratio * (xB - j.groundAnchorB).length| < linearSlop
  | _ => True

/-- The joints and states whose report `Close` describes. -/
def Joint.Tells [Elem F] (bodies : Nat → JBody F) (pos : Arr (Pos F)) (j : Joint F) : Prop :=
  match j with
  | .revolute j => j.enableLimit = false
  | .wheel j => j.enableLimit = false
  | .prismatic j => j.enableLimit = true → 2 * linearSlop ≤ j.upperTranslation - j.lowerTranslation
  | .distance k => k.minLength ≤ k.maxLength ∧ epsilon ≤ (j.anchorB bodies pos - j.anchorA bodies pos).length
  | .gear _ => False
  | _ => True

end
end B2
