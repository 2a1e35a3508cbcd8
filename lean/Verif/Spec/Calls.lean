import Verif.Spec.World
import Verif.Spec.Shapes

/-! # What a correct program is -/
namespace B2.Spec
section
variable {F : Type} [Field F] [LinearOrder F] [IsStrictOrderedRing F] [Elem F]

/-- The shape is not degenerate: a circle has a positive radius, a polygon more area than `EPSILON`. -/
def Extended : Shape F → Prop
  | .circle c => 0 < c.radius
  | .polygon p => epsilon < shoelace p.verts
  | _ => True

/-- What the caller of a function of the world, a body, a fixture or a contact must see to: objects passed in belong to this world and have
not been destroyed, and

* dampings and densities are not negative, shapes are fine (`FineShape`) and not degenerate,
* a joint joins two different bodies,
* a body is enabled only if it is disabled (or has no fixture),
* mass data have a center about which the body can turn,
* the filter of a fixture is changed only while the fixture has no contact,
* a manifold given by hand has one or two points and does not pull, and `set_sensor` is used as in `Tame`,
* while the world is stepped it has at most 64 bodies, and edges and chains are on static and kinematic bodies. -/
def Call.Valid (w : World F) : Call F → Prop
  | .createBody d => 0 ≤ d.linearDamping ∧ 0 ≤ d.angularDamping
  | .destroyBody b => b ∈ w.g.bodyList
  | .createFixture b d => b ∈ w.g.bodyList ∧ 0 ≤ d.attr.density ∧ (∃ n, d.shape.childCount = some n) ∧ FineShape d.shape ∧ Extended d.shape
  | .destroyFixture b f => b ∈ w.g.bodyList ∧ (w.g.fixtures f).body = some b
  | .createJoint d => d.a ∈ w.g.bodyList ∧ d.b ∈ w.g.bodyList ∧ d.a ≠ d.b
  | .destroyJoint j => j ∈ w.g.jointList
  | .setType b _ => b ∈ w.g.bodyList
  | .setEnabled b flag => b ∈ w.g.bodyList ∧ (flag = true → (w.g.bodies b).enabled = false ∨ (w.g.bodies b).fixtures = [])
  | .setTransform b _ _ => b ∈ w.g.bodyList
  | .setMassData b m => b ∈ w.g.bodyList ∧ (0 < m.i → (if m.mass ≤ 0 then 1 else m.mass) * (m.center.x ^ 2 + m.center.y ^ 2) < m.i)
  | .setFilterData f _ | .refilter f => (∃ b ∈ w.g.bodyList, (w.g.fixtures f).body = some b) ∧
      ∀ c ∈ w.g.contactList, (w.g.contacts c).fA ≠ f ∧ (w.g.contacts c).fB ≠ f
  | .user (.body b _) => b ∈ w.g.bodyList
  | .user (.fixtureSetDensity _ x) => 0 ≤ x
  | .user (.fixtureSetSensor f flag) => (∃ b ∈ w.g.bodyList, (w.g.fixtures f).body = some b) ∧ Tame w (.user (.fixtureSetSensor f flag))
  | .user (.contactSetManifold _ m) => OneOrTwo m ∧ Pushing m
  | .step _ _ _ => w.g.bodyList.length ≤ 64 ∧ EdgesFixed w
  | _ => True

/-- The calls can be made one after the other, starting in `w`: whenever a call is reached it is valid. -/
def Correct (env : Env F) : World F → List (Call F) → Prop
  | _, [] => True
  | w, c :: cs => c.Valid w ∧ ∀ w', c.run env w = some w' → Correct env w' cs

/-- The calls one after the other; `none` if one of them panics. -/
def runCalls (env : Env F) (w : World F) (cs : List (Call F)) : Option (World F) := cs.foldlM (Call.run env) w

end
end B2.Spec
