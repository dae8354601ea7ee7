/-
One configuration with two origins of space and time.
-/
import Verif.Spec.Ibpm
import Verif.Model.Parser

namespace PetIBM.Spec

variable {K : Type} [Field K]

/-- A change of the origin: `shift d` is added to every coordinate in direction `d`, `clock` to every time. -/
structure Origin (K : Type) where
  shift : ℕ → K
  clock : K

namespace Origin

/-- A direction of the mesh. -/
def axis (o : Origin K) (d : ℕ) (a : Axis K) : Axis K := ⟨a.min + o.shift d, a.max + o.shift d, a.dL⟩

/-- An entry of the section `mesh`: its start and the ends of its parts. -/
def entry (o : Origin K) (a : AxisNode K) : AxisNode K where
  direction := a.direction
  start := a.start + o.shift (str2dir a.direction)
  subDomains := a.subDomains.map fun s => { s with end_ := s.end_ + o.shift (str2dir a.direction) }

/-- The data of the mesh. -/
def meshData (o : Origin K) (m : MeshData K) : MeshData K := { m with bg := fun d => m.bg d + o.shift d, ed := fun d => m.ed d + o.shift d }

/-- The coordinates of the grid points; a plane mesh keeps an unused point of the third component at zero. -/
def geom (o : Origin K) (dim : ℕ) (G : Geom K) : Geom K where
  coord f d i := G.coord f d i + if f < dim ∨ 3 ≤ f then o.shift d else 0
  dL := G.dL

/-- An initial condition. Its time is that of the beginning of the run. -/
def expr (o : Origin K) (e : Expr K) : Expr K := fun x y z t nu => e (x - o.shift 0) (y - o.shift 1) (z - o.shift 2) t nu

/-- The section `flow`. -/
def flow (o : Origin K) (F : FlowNode K) : FlowNode K where
  nu := F.nu
  initialVelocity := F.initialVelocity.map (List.map o.expr)
  initialPressure := F.initialPressure.map o.expr

/-- The parameters. -/
def params (o : Origin K) (P : NSParams K) : NSParams K := { P with t := P.t + o.clock }

/-- A point of a body. -/
def point (o : Origin K) (p : List K) : List K := p.mapIdx fun d x => x + o.shift d

/-- A body. -/
def body (o : Origin K) (b : SingleBody K) : SingleBody K := { b with coords := b.coords.map o.point }

/-- All bodies. -/
def bodies (o : Origin K) (P : BodyPack K) : BodyPack K := { P with bodies := P.bodies.map o.body }

/-- A file: only its time. -/
def file (o : Origin K) (f : H5File K) : H5File K := { f with time := f.time.map (· + o.clock) }

/-- All files. -/
def disk (o : Origin K) (d : Disk K) : Disk K := fun path => (d path).map o.file

/-- A state of the flow: only its time. -/
def state (o : Origin K) (s : NSState K) : NSState K := { s with t := s.t + o.clock }

/-- A state of the flow and the forces. -/
def ibState (o : Origin K) (s : IBState K) : IBState K := { s with ns := o.state s.ns }

/-- A state with moving bodies: the same operators between grid and bodies. -/
def rigid (o : Origin K) (s : RigidState K) : RigidState K := { s with toIBState := o.ibState s.toIBState, bodies := o.bodies s.bodies }

end Origin

/-- A prescribed motion with two origins. -/
structure SameMotion (o : Origin K) (M M' : Motion K) : Prop where
  coordinates : ∀ t b, M'.coordinates (t + o.clock) (o.bodies b) = o.bodies (M.coordinates t b)
  velocity : ∀ t b x, M'.velocity (t + o.clock) (o.bodies b) x = M.velocity t b x

end PetIBM.Spec
