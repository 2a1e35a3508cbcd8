import Verif.Spec.Engine
import Verif.Spec.Joint
import Verif.Spec.WorldMotion
import Verif.Spec.ContactSolver

/-! # Specification: the momentum of a set of bodies -/
namespace B2.Spec
section
variable {F : Type} [Field F] [LinearOrder F] [IsStrictOrderedRing F] [Elem F]

/-- The total momentum of the bodies of `S`, with their masses in world `w`, if they had the velocities `v`. -/
def momentumOf (w : World F) (S : Finset Nat) (v : Nat → Vec2 F) : Vec2 F :=
  ⟨∑ b ∈ S, (w.phys b).mass * (v b).x, ∑ b ∈ S, (w.phys b).mass * (v b).y⟩

/-- The mass of the bodies of `S`. -/
def massOf (w : World F) (S : Finset Nat) : F := ∑ b ∈ S, (w.phys b).mass

/-- The centre of mass of the bodies of `S`; `sweep.c` is a body's own centre of mass (`get_world_center`). -/
def centreOf (w : World F) (S : Finset Nat) : Vec2 F := (1 / massOf w S) * momentumOf w S (fun b => (w.phys b).sweep.c)

/-- The sum of vectors over a set of bodies. -/
def sumOf (S : Finset Nat) (v : Nat → Vec2 F) : Vec2 F := ⟨∑ b ∈ S, (v b).x, ∑ b ∈ S, (v b).y⟩

/-- The bodies of `S` are dynamic bodies of the world that have mass and are enabled. -/
structure Movable (w : World F) (S : Finset Nat) : Prop where
  mem : ∀ b ∈ S, b ∈ w.g.bodyList
  type : ∀ b ∈ S, w.typeOf b = .dynamic
  enabled : ∀ b ∈ S, (w.g.bodies b).enabled = true
  mass : ∀ b ∈ S, (w.phys b).invMass ≠ 0

/-- In a step that ends in `w'`, the bodies of `S` have to do with each other only: in `w'` no contact transmits forces between a body of `S`
and one outside `S`; no joint leads from `S` outside; and the joints of `S` are joints that hold one body to another (not pulleys, mouse joints or
gears). -/
structure Isolated (E : Engine F) (w w' : World F) (S : Finset Nat) : Prop where
  contacts : ∀ c, Transmits w' c → ∀ x y, (w'.g.fixtures (w'.g.contacts c).fA).body = some x → (w'.g.fixtures (w'.g.contacts c).fB).body = some y → (x ∈ S ↔ y ∈ S)
  joints : ∀ j ∈ w.g.jointList, ((w.g.joints j).a ∈ S ↔ (w.g.joints j).b ∈ S)
  plain : ∀ j ∈ w.g.jointList, (w.g.joints j).a ∈ S → ∀ v : World F, v.g.joints j = w.g.joints j →
    (E.joint v j).plain = true ∧ (E.joint v j).bodyA = (w.g.joints j).a ∧ (E.joint v j).bodyB = (w.g.joints j).b

/-- The square root of a positive number is not zero and its square is not greater than the number. It holds of the reals, and is all that
is asked of the square root here. -/
def RootBelow (F : Type) [Field F] [LinearOrder F] [Elem F] : Prop := ∀ x : F, 0 < x → Elem.sqrt x ≠ 0 ∧ Elem.sqrt x * Elem.sqrt x ≤ x

/-- The body is slower than the engine's limit on the movement in one step. -/
def BelowLimit (dt : F) (v : Vec2 F) : Prop := dot (dt * v) (dt * v) < maxTranslation * maxTranslation

end
end B2.Spec
