import Verif.Spec.WorldMotion

/-! # Specification: the coefficients of contacts -/
namespace B2.Spec
section
variable {F : Type} [Field F] [LinearOrder F] [Elem F]

/-- The coefficients of a contact are those its fixtures give: the geometric mean of the frictions, the larger restitution and the smaller restitution threshold;
and its surfaces do not run as a conveyor belt. -/
structure Mixed (w : World F) (c : Nat) : Prop where
  friction : (w.cst c).friction = Elem.sqrt ((w.fattr (w.g.contacts c).fA).friction * (w.fattr (w.g.contacts c).fB).friction)
  restitution : (w.cst c).restitution = max (w.fattr (w.g.contacts c).fA).restitution (w.fattr (w.g.contacts c).fB).restitution
  threshold : (w.cst c).restitutionThreshold = min (w.fattr (w.g.contacts c).fA).restitutionThreshold (w.fattr (w.g.contacts c).fB).restitutionThreshold
  still : (w.cst c).tangentSpeed = 0

/-- Contact `c` has the coefficients it had. -/
structure SameCoefs (w w' : World F) (c : Nat) : Prop where
  friction : (w'.cst c).friction = (w.cst c).friction
  restitution : (w'.cst c).restitution = (w.cst c).restitution
  threshold : (w'.cst c).restitutionThreshold = (w.cst c).restitutionThreshold
  speed : (w'.cst c).tangentSpeed = (w.cst c).tangentSpeed

/-- The operation sets no coefficient of a contact or a fixture. -/
def SetsNone : UserOp F → Prop
  | .contactSetFriction _ _ | .contactSetRestitution _ _ | .contactSetRestitutionThreshold _ _ | .contactSetTangentSpeed _ _ => False
  | .fixtureSetFriction _ _ | .fixtureSetRestitution _ _ | .fixtureSetRestitutionThreshold _ _ => False
  | _ => True

/-- The operation sets a coefficient of a contact. -/
def SetsContact : UserOp F → Prop
  | .contactSetFriction _ _ | .contactSetRestitution _ _ | .contactSetRestitutionThreshold _ _ | .contactSetTangentSpeed _ _ => True
  | _ => False

/-- The callbacks set no coefficients. -/
def Muted (env : Env F) : Prop := ∀ (w : World F) k, ∀ op ∈ env.react w k, SetsNone op

/-- The worlds reached by calls that set no coefficients. -/
inductive UnsetHist (env : Env F) : World F → Prop
  | new (gravity : Vec2 F) (dPhys : Phys F) (dShape : Shape F) (dAttr : FAttr F) (dCst : CState F) (dBox : AABB F) :
      UnsetHist env (World.new gravity dPhys dShape dAttr dCst dBox)
  | call {w w' : World F} (c : Call F) : UnsetHist env w → c.Ok w → (∀ op, c = .user op → SetsNone op) → c.run env w = some w' → UnsetHist env w'

end
end B2.Spec
