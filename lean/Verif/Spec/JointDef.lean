import Verif.Model.JointDef
import Verif.Spec.JointPos

/-!
# What it means that a joint is saved and loaded
-/
namespace B2

section
variable {F : Type} [Field F] [LinearOrder F]

/-- A joint as a program can have it: created from a definition, changed by calls of its user, initialized and solved in steps. -/
inductive Joint.Made [Elem F] : Joint F → Prop
  | create {d : JointDef F} {j} : d.create = some j → Made j
  | call {j j'} {c : JointCall F} : Made j → j.call c = some j' → Made j'
  | init {j j'} {st : JStep F} {bodies pos vel vel'} : Made j → j.initVel st bodies pos vel = some (j', vel') → Made j'
  | solve {j j'} {st : JStep F} {vel vel'} : Made j → j.solveVel st vel = some (j', vel') → Made j'

/-- A joint as it is written. -/
def Joint.save (j : Joint F) : Option (JointKind × Written F) := j.getDef.map JointDef.write
/-- The joint that is made from a saved one if the format keeps the values in order. -/
def loadSeq [Elem F] (s : JointKind × Written F) : Option (Joint F) := (JointDef.readSeq (s.2.fields.map (·.2)) s.1).bind JointDef.create
/-- The joint that is made from a saved one if the format keeps the names and returns the entries as `es`. -/
def loadMap [Elem F] (s : JointKind × Written F) (es : List (String × Val F)) : Option (Joint F) := (JointDef.readMap es s.1).bind JointDef.create
/-- The joint that is made from a saved one if the format keeps as many values as were announced. -/
def loadCounted [Elem F] (s : JointKind × Written F) : Option (Joint F) :=
  (JointDef.readSeq ((s.2.fields.take s.2.announced).map (·.2)) s.1).bind JointDef.create

/-- No impulse is stored in the joint from an earlier step. -/
def Joint.Unloaded : Joint F → Prop
  | .revolute j => j.impulse = ⟨0, 0⟩ ∧ j.motorImpulse = 0 ∧ j.lowerImpulse = 0 ∧ j.upperImpulse = 0
  | .prismatic j => j.impulse = ⟨0, 0⟩ ∧ j.motorImpulse = 0 ∧ j.lowerImpulse = 0 ∧ j.upperImpulse = 0
  | .distance j => j.impulse = 0 ∧ j.lowerImpulse = 0 ∧ j.upperImpulse = 0
  | .weld j => j.impulse = ⟨0, 0, 0⟩
  | .wheel j => j.impulse = 0 ∧ j.motorImpulse = 0 ∧ j.springImpulse = 0 ∧ j.lowerImpulse = 0 ∧ j.upperImpulse = 0
  | .friction j => j.linearImpulse = ⟨0, 0⟩ ∧ j.angularImpulse = 0
  | .motor j => j.linearImpulse = ⟨0, 0⟩ ∧ j.angularImpulse = 0
  | .pulley j => j.impulse = 0
  | .mouse j => j.impulse = ⟨0, 0⟩
  | .gear j => j.impulse = 0

/-- What a joint does to the bodies in a step: the velocities before and after each of its calls (initialized once, then solved for each
of `vs`), and what its position correction makes of each of `ps`. -/
def Joint.work [Elem F] (st : JStep F) (bodies : Nat → JBody F) (pos : Arr (Pos F)) (v : Arr (Vel F)) (vs : List (Arr (Vel F)))
    (ps : List (Arr (Pos F))) (j : Joint F) : Option (List (Arr (Vel F) × Arr (Vel F)) × List (Option (Arr (Pos F) × Bool))) := do
  let r ← j.calls st bodies pos v vs
  return (r.2, ps.map r.1.solvePos)

/-- The joint `j'` has the parameters of `j`, and does the same to the bodies if `j` has no stored impulses, or if the step does not
use them. (A distance joint uses the impulses of its limits even then.) -/
def Joint.SameAs [Elem F] (j j' : Joint F) : Prop :=
  j'.getDef = j.getDef ∧ j'.Unloaded ∧
  ∀ st bodies pos v vs ps, j.Unloaded ∨ (st.warmStarting = false ∧ ∀ k, j ≠ .distance k) →
    j'.work st bodies pos v vs ps = j.work st bodies pos v vs ps

end
end B2
