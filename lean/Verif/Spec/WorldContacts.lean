import Verif.Spec.World

/-! Which pairs of fixtures ought to have a contact. -/
namespace B2.Spec
open B2

section
variable {F : Type} [Field F] [LinearOrder F] [IsStrictOrderedRing F] [Elem F]

/-- What the filter says of two fixtures; when it is the user's, with the world as it is. -/
def FilterAllows (env : Env F) (w : World F) (f f' : Nat) : Prop :=
  match env.filter with
  | none => filterShouldCollide (w.fattr f).filter (w.fattr f').filter = true
  | some φ => φ w f f' = true

/-- The user's filter, if there is one, looks at nothing that changes but the filter data of the two fixtures. -/
def FilterSteady (env : Env F) : Prop :=
  ∀ φ, env.filter = some φ → ∀ (w w' : World F) (f f' : Nat),
    (w.fattr f).filter = (w'.fattr f).filter → (w.fattr f').filter = (w'.fattr f').filter → φ w f f' = φ w' f f'

/-- Nothing stands in the way of a contact of the two fixtures: they belong to different enabled bodies of the world, at
least one of which is dynamic, no joint that forbids it joins the bodies, and the filter agrees, in whichever order it is asked. `D`
is a relation of pairs of bodies left out of account. -/
def MayCollide (env : Env F) (D : Nat → Nat → Prop) (w : World F) (f f' : Nat) : Prop :=
  ∃ a b, (w.g.fixtures f).body = some a ∧ (w.g.fixtures f').body = some b ∧ a ∈ w.g.bodyList ∧ b ∈ w.g.bodyList ∧ a ≠ b ∧
    (w.g.bodies a).enabled = true ∧ (w.g.bodies b).enabled = true ∧
    ((w.g.bodies a).type = .dynamic ∨ (w.g.bodies b).type = .dynamic) ∧
    (∀ j ∈ w.g.jointList, ((w.g.joints j).a = a ∧ (w.g.joints j).b = b) ∨ ((w.g.joints j).a = b ∧ (w.g.joints j).b = a) →
      (w.g.joints j).collideConnected = true) ∧
    (¬ D a b ∧ ¬ D b a) ∧ FilterAllows env w f f' ∧ FilterAllows env w f' f

/-- The fattened boxes of two children of fixtures overlap: `test_overlap` of the broad-phase on the proxies of the two
children says so. -/
def FatOverlap (w : World F) (x y : Nat × Nat) : Prop :=
  ∃ px py idx idy, (w.g.fixtures x.1).proxies[x.2]? = some px ∧ px.proxyId = some idx ∧
    (w.g.fixtures y.1).proxies[y.2]? = some py ∧ py.proxyId = some idy ∧ w.bp.testOverlap idx idy = some true

/-- The world has a contact of the two children, in one order or the other. -/
def HasContact (w : World F) (x y : Nat × Nat) : Prop :=
  ∃ c ∈ w.g.contactList,
    let k := w.g.contacts c
    ((k.fA, k.iA) = x ∧ (k.fB, k.iB) = y) ∨ ((k.fA, k.iA) = y ∧ (k.fB, k.iB) = x)

/-- The worlds reached as in `WHist`, with `D` holding of the bodies of every joint that was destroyed by the caller while it
kept its bodies from colliding. -/
inductive DHist (env : Env F) (D : Nat → Nat → Prop) : World F → Prop
  | new (gravity : Vec2 F) (dPhys : Phys F) (dShape : Shape F) (dAttr : FAttr F) (dCst : CState F) (dBox : AABB F) :
      DHist env D (World.new gravity dPhys dShape dAttr dCst dBox)
  | call {w w' : World F} (c : Call F) : DHist env D w → c.Ok w →
      (∀ j, c = .destroyJoint j → (w.g.joints j).collideConnected = false → D (w.g.joints j).a (w.g.joints j).b) →
      c.run env w = some w' → DHist env D w'

end
end B2.Spec
