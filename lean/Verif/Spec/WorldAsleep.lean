import Verif.Spec.WorldMotion

/-! What it is for a whole world to be asleep. -/
namespace B2.Spec
set_option linter.unusedSectionVars false

variable {F : Type} [Field F] [LinearOrder F] [IsStrictOrderedRing F] [Elem F]

/-- Nothing is going on in the world: no body is awake but static and disabled ones, the last step was completed, and no contact waits for its
filters to be looked at again. -/
structure Dormant (w : World F) : Prop where
  asleep : ∀ b ∈ w.g.bodyList, (w.g.bodies b).enabled = true → (w.phys b).awake = true → w.typeOf b = .static
  complete : w.stepComplete = true
  filtered : ∀ c ∈ w.g.contactList, (w.cst c).filter = false

/-- The body is where it was, with the velocity it had, and as awake as it was. -/
structure Unmoved (p q : Phys F) : Prop where
  xf : q.xf = p.xf
  c : q.sweep.c = p.sweep.c
  a : q.sweep.a = p.sweep.a
  v : q.v = p.v
  w : q.w = p.w
  awake : q.awake = p.awake
  sleepTime : q.sleepTime = p.sleepTime

/-- `w'` comes from `w` by steps, any number of them and of any lengths. -/
inductive Steps (env : Env F) : World F → World F → Prop
  | refl (w : World F) : Steps env w w
  | step {w w' w'' : World F} (dt : F) (vi pi : Nat) : Steps env w w' → w'.step env dt vi pi = some w'' → Steps env w w''

end B2.Spec
