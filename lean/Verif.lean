import Verif.Props.DynamicTree
import Verif.Props.Containers
import Verif.Props.Math
import Verif.Props.Collision
import Verif.Props.TreeRayCast
import Verif.Props.BroadPhase
import Verif.Props.Shapes
import Verif.Props.Polygon
import Verif.Props.Body
import Verif.Proofs.WorldFrame
import Verif.Proofs.WorldGraph
import Verif.Proofs.WorldProxy
import Verif.Proofs.WorldInv
import Verif.Proofs.WorldContact
import Verif.Proofs.WorldTr
import Verif.Proofs.WorldJoint
import Verif.Proofs.WorldOps
import Verif.Proofs.WorldOps2
import Verif.Proofs.WorldOps3
import Verif.Proofs.WorldDestroy
import Verif.Proofs.WorldGood
import Verif.Proofs.WorldToi
import Verif.Proofs.WorldHist
import Verif.Props.World
import Verif.Proofs.WorldTurns
import Verif.Proofs.WorldSleep
import Verif.Proofs.WorldPhys
import Verif.Props.WorldStep
import Verif.Proofs.WorldIsland
import Verif.Proofs.WorldIslands
import Verif.Props.Island
import Verif.Proofs.WorldToiIsland
import Verif.Proofs.WorldTotal
import Verif.Proofs.WorldHeld
import Verif.Props.Total
import Verif.Props.Distance
import Verif.Props.TimeOfImpact
import Verif.Props.ContactSolver
import Verif.Model.Collide
import Verif.Spec.Collide
import Verif.Proofs.Collide
import Verif.Proofs.CollideEdge
import Verif.Proofs.CollideWorld
import Verif.Props.Collide
import Verif.Proofs.CollideClip
import Verif.Proofs.CollideSound
import Verif.Proofs.CollideEdgePoly
import Verif.Proofs.CollideSat
import Verif.Props.Manifold
import Verif.Props.Polygons
import Verif.Model.Joint
import Verif.Spec.Joint
import Verif.Proofs.Joint
import Verif.Proofs.JointArray
import Verif.Proofs.JointArms
import Verif.Proofs.JointTouch
import Verif.Proofs.JointEach
import Verif.Proofs.JointGear
import Verif.Proofs.JointBounds
import Verif.Proofs.JointExample
import Verif.Props.Joint
import Verif.Proofs.JointSettled
import Verif.Proofs.JointEnergy
import Verif.Proofs.JointEnergyStep
import Verif.Props.JointSolve
import Verif.Proofs.JointFriction
import Verif.Props.JointEnergy
import Verif.Proofs.JointGearSpeed
import Verif.Props.JointGear
import Verif.Proofs.BroadPhaseTrack
import Verif.Proofs.WorldCarry
import Verif.Spec.WorldContacts
import Verif.Proofs.WorldComplete
import Verif.Props.WorldContacts
import Verif.Model.Rope
import Verif.Spec.Rope
import Verif.Proofs.Rope
import Verif.Proofs.RopeTotal
import Verif.Proofs.RopeRest
import Verif.Proofs.RopeStuck
import Verif.Props.Rope
import Verif.Spec.WorldBody
import Verif.Proofs.WorldBody
import Verif.Props.WorldBody
import Verif.Model.Serialize
import Verif.Spec.Serialize
import Verif.Proofs.Serialize
import Verif.Proofs.SerializeJoint
import Verif.Proofs.SerializeView
import Verif.Proofs.SerializeTotal
import Verif.Props.Serialize
import Verif.Spec.WorldMotion
import Verif.Proofs.WorldTrack
import Verif.Proofs.WorldToiTrack
import Verif.Proofs.WorldSolveTrack
import Verif.Proofs.WorldStepTrack
import Verif.Proofs.WorldHeavy
import Verif.Proofs.WorldPlain
import Verif.Proofs.WorldBoxes
import Verif.Proofs.WorldDisabled
import Verif.Proofs.WorldFree
import Verif.Props.WorldMotion
import Verif.Model.WorldQuery
import Verif.Spec.WorldQuery
import Verif.Proofs.WorldCovers
import Verif.Proofs.WorldSteady
import Verif.Proofs.WorldQuery
import Verif.Props.WorldQuery
import Verif.Proofs.WorldPoints
import Verif.Proofs.WorldPointsToi
import Verif.Proofs.WorldPointsHist
import Verif.Model.Engine
import Verif.Proofs.JointPos
import Verif.Proofs.EngineSolve
import Verif.Spec.Engine
import Verif.Proofs.Engine
import Verif.Proofs.EngineNarrow
import Verif.Props.Engine
import Verif.Spec.Calls
import Verif.Proofs.ShapeMass
import Verif.Proofs.CallTotal
import Verif.Props.Calls
import Verif.Spec.Touch
import Verif.Proofs.WorldTouch
import Verif.Props.Touch
import Verif.Spec.Momentum
import Verif.Proofs.Momentum
import Verif.Proofs.Centre
import Verif.Proofs.WorldMomentum
import Verif.Proofs.WorldBounce
import Verif.Props.Momentum
import Verif.Spec.WorldAsleep
import Verif.Proofs.WorldAsleep
import Verif.Props.WorldAsleep
import Verif.Spec.JointPos
import Verif.Proofs.JointExact
import Verif.Props.JointPos
import Verif.Spec.Impact
import Verif.Proofs.WorldImpact
import Verif.Props.Impact
import Verif.Model.JointDef
import Verif.Spec.JointDef
import Verif.Proofs.JointDef
import Verif.Props.JointDef
import Verif.Spec.JointStill
import Verif.Proofs.JointStill
import Verif.Spec.JointInit
import Verif.Proofs.JointInit
import Verif.Props.JointStill
import Verif.Model.TreeReport
import Verif.Spec.JointShift
import Verif.Spec.TreeReport
import Verif.Proofs.JointShift
import Verif.Proofs.TreeReport
import Verif.Props.JointShift
import Verif.Props.Box
import Verif.Props.TreeReport
import Verif.Proofs.WorldShift
import Verif.Props.WorldShift
import Verif.Props.Rectangles
import Verif.Props.RectangleEdge
import Verif.Props.Draw
import Verif.Props.Quiet
import Verif.Props.Bounce
import Verif.Props.Ghost
import Verif.Props.WorldEnergy
import Verif.Props.Viewpoint
import Verif.Spec.Rest
import Verif.Proofs.Rest
import Verif.Proofs.WorldRest
import Verif.Props.Rest
import Verif.Proofs.WorldTimer
import Verif.Proofs.WorldDoze
import Verif.Props.Doze
import Verif.Spec.Mixture
import Verif.Proofs.WorldMixture
import Verif.Proofs.WorldMixtureHist
import Verif.Props.Mixture
import Verif.Spec.Heap
import Verif.Proofs.WorldHeap
import Verif.Props.Heap
import Verif.Spec.Memory
import Verif.Proofs.Memory
import Verif.Proofs.MemoryStep
import Verif.Props.Memory
import Verif.Model.BodyGet
import Verif.Spec.BodyGet
import Verif.Props.BodyGet
