import Verif.Model.Engine

/-! # Specification: what solvers remember of earlier steps -/
namespace B2.Spec
section
variable {F : Type} [Field F] [LinearOrder F] [IsStrictOrderedRing F] [Elem F]

/-- The manifold with its impulses set to zero. -/
def forgetManifold (m : Manifold F) : Manifold F := { m with points := m.points.map fun p => { p with normalImpulse := 0, tangentImpulse := 0 } }

/-- A contact, as the solver reads it, with its impulses set to zero. -/
def forgetContact (c : ContactIn F) : ContactIn F := { c with manifold := forgetManifold c.manifold }

/-- A joint with all its impulses set to zero. -/
def forgetJoint : Joint F → Joint F
  | .revolute j => .revolute { j with impulse := ⟨0, 0⟩, motorImpulse := 0, lowerImpulse := 0, upperImpulse := 0 }
  | .prismatic j => .prismatic { j with impulse := ⟨0, 0⟩, motorImpulse := 0, lowerImpulse := 0, upperImpulse := 0 }
  | .distance j => .distance { j with impulse := 0, lowerImpulse := 0, upperImpulse := 0 }
  | .weld j => .weld { j with impulse := ⟨0, 0, 0⟩ }
  | .wheel j => .wheel { j with impulse := 0, motorImpulse := 0, springImpulse := 0, lowerImpulse := 0, upperImpulse := 0 }
  | .friction j => .friction { j with linearImpulse := ⟨0, 0⟩, angularImpulse := 0 }
  | .motor j => .motor { j with linearImpulse := ⟨0, 0⟩, angularImpulse := 0 }
  | .pulley j => .pulley { j with impulse := 0 }
  | .mouse j => .mouse { j with impulse := ⟨0, 0⟩ }
  | .gear j => .gear { j with impulse := 0 }

/-- The limits of the joint, if it is a distance joint, have no impulses left. -/
def LimitsIdle : Joint F → Prop
  | .distance j => j.lowerImpulse = 0 ∧ j.upperImpulse = 0
  | _ => True

/-- The world with all impulses of its contacts set to zero. -/
def forgetWorld (w : World F) : World F := { w with cst := fun c => { w.cst c with manifold := forgetManifold (w.cst c).manifold } }

/-- The environment of the engine, but its solvers are shown worlds without impulses, joints without impulses, and no ratio of the step to the last one. -/
def amnesic (E : Engine F) : Env F :=
  let blank (w : World F) : Engine F := { E with joint := fun _ j => forgetJoint (E.joint w j) }
  { E.env with
    solvable := fun w isl s => (blank w).env.solvable (forgetWorld w) isl { s with dtRatio := 0 }
    solveVel := fun w isl s => (blank w).env.solveVel (forgetWorld w) isl { s with dtRatio := 0 }
    solvePos := fun w isl s => (blank w).env.solvePos (forgetWorld w) isl { s with dtRatio := 0 }
    toiSolvable := fun w isl s => (blank w).env.toiSolvable (forgetWorld w) isl { s with dtRatio := 0 }
    toiPos := fun w isl s => (blank w).env.toiPos (forgetWorld w) isl { s with dtRatio := 0 }
    toiVel := fun w isl s => (blank w).env.toiVel (forgetWorld w) isl { s with dtRatio := 0 } }

end
end B2.Spec
