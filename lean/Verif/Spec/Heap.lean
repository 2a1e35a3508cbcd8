import Verif.Spec.WorldAsleep

/-! # Specification: bodies that sleep while others are awake -/
namespace B2.Spec
section
variable {F : Type} [Field F] [LinearOrder F] [IsStrictOrderedRing F] [Elem F]

/-- One of the fixtures of contact `c` is on body `b` and the other on body `o`. -/
def Across (w : World F) (c b o : Nat) : Prop :=
  ((w.g.fixtures (w.g.contacts c).fA).body = some b ∧ (w.g.fixtures (w.g.contacts c).fB).body = some o) ∨
  ((w.g.fixtures (w.g.contacts c).fB).body = some b ∧ (w.g.fixtures (w.g.contacts c).fA).body = some o)

/-- Joint `j` is on body `b` and on body `o`. -/
def JoinedBy (w : World F) (j b o : Nat) : Prop :=
  ((w.g.joints j).a = b ∧ (w.g.joints j).b = o) ∨ ((w.g.joints j).b = b ∧ (w.g.joints j).a = o)

/-- The bodies of `S` are asleep, and contacts and joints connect them with each other and with static bodies only. None of their contacts
waits for its filters to be looked at again. -/
structure Heap (S : Nat → Prop) (w : World F) : Prop where
  asleep : ∀ b, S b → w.typeOf b ≠ .static ∧ (w.phys b).awake = false
  contacts : ∀ c ∈ w.g.contactList, ∀ b o, Across w c b o → S b → (S o ∨ w.typeOf o = .static) ∧ (w.cst c).filter = false
  joints : ∀ j ∈ w.g.jointList, ∀ b o, JoinedBy w j b o → S b → S o ∨ w.typeOf o = .static

/-- The callbacks call no function of a body and switch no sensors. -/
def Hush (env : Env F) : Prop := ∀ w k, ∀ op ∈ env.react w k, (∀ b o, op ≠ UserOp.body b o) ∧ ∀ f x, op ≠ UserOp.fixtureSetSensor f x

end
end B2.Spec
