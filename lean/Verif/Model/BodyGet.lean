import Verif.Model.World

/-!
# What a body tells about itself

The functions of a body that compute what they return (b2_body.rs, `mod inline`).
-/
namespace B2
variable {F : Type} [Field F]

/-- `get_inertia` (b2_body.rs 708-711): about the origin of the body. -/
def Phys.getInertia (p : Phys F) : F := p.i + p.mass * dot p.sweep.localCenter p.sweep.localCenter
/-- `get_mass_data` (b2_body.rs 713-718). -/
def Phys.getMassData (p : Phys F) : MassData F :=
  ⟨p.mass, p.sweep.localCenter, p.i + p.mass * dot p.sweep.localCenter p.sweep.localCenter⟩
/-- `get_world_point` (b2_body.rs 720-722). -/
def Phys.worldPoint (p : Phys F) (x : Vec2 F) : Vec2 F := p.xf.mulV x
/-- `get_world_vector` (b2_body.rs 724-726). -/
def Phys.worldVector (p : Phys F) (x : Vec2 F) : Vec2 F := p.xf.q.mulV x
/-- `get_local_point` (b2_body.rs 728-730). -/
def Phys.localPoint (p : Phys F) (x : Vec2 F) : Vec2 F := p.xf.mulTV x
/-- `get_local_vector` (b2_body.rs 732-734). -/
def Phys.localVector (p : Phys F) (x : Vec2 F) : Vec2 F := p.xf.q.mulTV x
/-- `get_linear_velocity_from_world_point` (b2_body.rs 736-742). -/
def Phys.velocityAt (p : Phys F) (x : Vec2 F) : Vec2 F := p.v + crossSV p.w (x - p.sweep.c)
/-- `get_linear_velocity_from_local_point` (b2_body.rs 744-749). -/
def Phys.velocityAtLocal (p : Phys F) (x : Vec2 F) : Vec2 F := p.velocityAt (p.worldPoint x)

end B2
