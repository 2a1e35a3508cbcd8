import Verif.Spec.WorldMotion
import Verif.Spec.Momentum

/-! Flight of a body that meets nothing solid, over any number of steps. -/
namespace B2.Spec
set_option linter.unusedSectionVars false

variable {F : Type} [Field F] [LinearOrder F] [IsStrictOrderedRing F] [Elem F]

/-- No contact with the body transmits forces: what touches it is a sensor, or the contact was disabled by a callback. -/
def Untouched (w : World F) (b : Nat) : Prop := ∀ c, Transmits w c → ¬ OfBody w c b

/-- The body is in the world, dynamic, awake, enabled and held by no joint. -/
structure Loose (w : World F) (b : Nat) : Prop where
  mem : b ∈ w.g.bodyList
  dynamic : w.typeOf b = .dynamic
  awake : (w.phys b).awake = true
  enabled : (w.g.bodies b).enabled = true
  joints : ∀ j ∈ w.g.jointList, (w.g.joints j).a ≠ b ∧ (w.g.joints j).b ≠ b

/-- `w'` comes from `w` by `n` steps of length `dt` (with any numbers of iterations), after each of which nothing solid touches `b`. In
none of them is `b` to become faster than the engine allows, or so slow that it may be put to sleep. -/
inductive Flight (env : Env F) (dt : F) (b : Nat) : Nat → World F → World F → Prop
  | refl (w : World F) : Flight env dt b 0 w w
  | step {n : Nat} {w w' w'' : World F} (vi pi : Nat) : Flight env dt b n w w' → w'.step env dt vi pi = some w'' → Untouched w'' b →
      Slow dt (freeV dt w'.gravity (w'.phys b)) (freeW dt (w'.phys b)) →
      (w'.allowSleep = true → ¬ Sleepy (w'.phys b) (freeV dt w'.gravity (w'.phys b)) (freeW dt (w'.phys b))) → Flight env dt b (n + 1) w w''

/-- `w'` comes from `w` by `n` steps of length `dt` (with any numbers of iterations) in each of which the bodies of `S` have to do with each
other only; after each of them the bodies are awake and slower than the engine's limit. -/
inductive Together (E : Engine F) (dt : F) (S : Finset Nat) : Nat → World F → World F → Prop
  | refl (w : World F) : Together E dt S 0 w w
  | step {n : Nat} {w w' w'' : World F} (vi pi : Nat) : Together E dt S n w w' → w'.step E.env dt vi pi = some w'' → Isolated E w' w'' S →
      (∀ b ∈ S, (w''.phys b).awake = true ∧ BelowLimit dt (w''.phys b).v) → Together E dt S (n + 1) w w''

/-- The weight of the bodies of `S`: the sum of their masses, each times the body's gravity scale, times gravity. -/
def weightOf (w : World F) (S : Finset Nat) : Vec2 F := sumOf S (fun b => ((w.phys b).gravityScale * (w.phys b).mass) * w.gravity)

end B2.Spec
