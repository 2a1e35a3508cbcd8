import Verif.Model.Rope
import Verif.Spec.Real
import Mathlib.Analysis.SpecialFunctions.Complex.Arg

/-!
# What is said about ropes
-/
namespace B2

/-- The law of `b2_atan2` that is used: no angle between a direction and itself. -/
class RopeLaws (F : Type) [Field F] [LinearOrder F] [RopeElem F] : Prop where
  atan2_zero : ∀ x : F, 0 < x → RopeElem.atan2 0 x = 0

noncomputable instance : RopeElem ℝ where
  exp := Real.exp
  atan2 := fun y x => Complex.arg ⟨x, y⟩

instance : RopeLaws ℝ where
  atan2_zero := fun x h => Complex.arg_ofReal_of_nonneg h.le

end B2

namespace B2.Spec

section
variable {F : Type} [Field F] [LinearOrder F] [IsStrictOrderedRing F] [Elem F] [RopeElem F]

/-- The ropes a program can hold after `create` with the definition `d` (on any rope, new or used) and any further calls. -/
inductive RopeRun (d : RopeDef F) : Rope F → Prop
  | create (r0 r : Rope F) : r0.create d = some r → RopeRun d r
  | setTuning (r : Rope F) (t : RopeTuning F) : RopeRun d r → RopeRun d (r.setTuning t)
  | reset (r : Rope F) (position : Vec2 F) : RopeRun d r → RopeRun d (r.reset position)
  | step (r r' : Rope F) (dt : F) (iterations : Nat) (position : Vec2 F) :
      RopeRun d r → r.step dt iterations position = some r' → RopeRun d r'

/-- The sum over the vertices of mass times a quantity of the vertex. -/
def massSum (d : RopeDef F) (r : Rope F) (f : RopeVertex F → F) : F :=
  ((d.vertices.zip r.vertices).map fun x => x.1.mass * f x.2).sum

/-- The mass of the whole rope. -/
def ropeMass (d : RopeDef F) : F := (d.vertices.map fun x => x.mass).sum

/-- No vertex lies on the next one. -/
def SegmentsDistinct (d : RopeDef F) : Prop :=
  ∀ i x y, d.vertices[i]? = some x → d.vertices[i + 1]? = some y → x.position ≠ y.position

/-- No vertex lies on the next but one. -/
def NotFolded (d : RopeDef F) : Prop :=
  ∀ i x y, d.vertices[i]? = some x → d.vertices[i + 2]? = some y → x.position ≠ y.position

/-- Of three consecutive vertices the first or the last is movable. -/
def Supple (d : RopeDef F) : Prop :=
  ∀ i x y, d.vertices[i]? = some x → d.vertices[i + 2]? = some y → 0 < x.mass ∨ 0 < y.mass

/-- The springs that the chosen models divide by are there. -/
def SpringsSet (t : RopeTuning F) : Prop :=
  (t.stretching = .xpbd → 0 < t.stretchHertz ∧ 0 ≤ t.stretchDamping) ∧ (t.bending = .xpbdAngle → 0 < t.bendHertz ∧ 0 ≤ t.bendDamping)

/-- The rope is made straight, its vertices in order along the line and not closer than `EPSILON`. -/
def Straight (d : RopeDef F) : Prop :=
  ∃ u : Vec2 F, dot u u = 1 ∧ ∀ i x y, d.vertices[i]? = some x → d.vertices[i + 1]? = some y →
    ∃ h : F, epsilon ≤ h ∧ y.position = x.position + h * u

/-- Every segment is as long as the next. -/
def Even (d : RopeDef F) : Prop :=
  ∀ i x y z, d.vertices[i]? = some x → d.vertices[i + 1]? = some y → d.vertices[i + 2]? = some z →
    z.position - y.position = y.position - x.position

/-- The vertices are at their places relative to `position` and do not move. -/
def InPlace (d : RopeDef F) (position : Vec2 F) (r : Rope F) : Prop :=
  List.Forall₂ (fun x y => y.p = x.position + position ∧ y.v = ⟨0, 0⟩) d.vertices r.vertices

/-- Some steps after each other, all with the same `position`. -/
def stepMany (position : Vec2 F) : List (F × Nat) → Rope F → Option (Rope F)
  | [], r => some r
  | s :: ss, r => do
    let r ← r.step s.1 s.2 position
    stepMany position ss r

end

end B2.Spec
