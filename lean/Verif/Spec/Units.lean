/-
One configuration in two systems of units.
-/
import Verif.Spec.NavierStokes
import Verif.Spec.Ibpm

namespace PetIBM.Spec

variable {K : Type} [Field K]

/-- A change of units: the numbers for lengths are multiplied by `len`, those for velocities by `vel`; hence times by `len / vel`, the kinematic
viscosity by `len * vel`, pressures (divided by the density) by `vel ^ 2`. -/
structure Scales (K : Type) where
  len : K
  vel : K

namespace Scales

/-- The factor of times. -/
def time (u : Scales K) : K := u.len / u.vel

/-- A direction of the mesh. -/
def axis (u : Scales K) (a : Axis K) : Axis K := ⟨u.len * a.min, u.len * a.max, a.dL.map (u.len * ·)⟩

/-- A boundary condition: a derivative is a velocity divided by a length, all other values are velocities. -/
def condition (u : Scales K) (c : BCType × K) : BCType × K :=
  (c.1, if c.1 = .NEUMANN then u.vel / u.len * c.2 else u.vel * c.2)

/-- An initial condition for a quantity whose factor is `c`. -/
def expr (u : Scales K) (c : K) (e : Expr K) : Expr K := fun x y z t nu =>
  c * e (x / u.len) (y / u.len) (z / u.len) (t / u.time) (nu / (u.len * u.vel))

/-- The section `flow`. -/
def flow (u : Scales K) (F : FlowNode K) : FlowNode K where
  nu := F.nu.map (u.len * u.vel * ·)
  initialVelocity := F.initialVelocity.map (List.map (u.expr u.vel))
  initialPressure := F.initialPressure.map (u.expr (u.vel ^ 2))

/-- The parameters. -/
def params (u : Scales K) (P : NSParams K) : NSParams K :=
  { P with dt := u.time * P.dt, t := u.time * P.t, nu := u.len * u.vel * P.nu }

/-- Lengths of the mesh: the missing direction of a plane mesh has one cell of width one, and the vertices have no widths. -/
def geom (u : Scales K) (dim : ℕ) (G : Geom K) : Geom K where
  coord f d i := u.len * G.coord f d i
  dL f d i := (if d < dim ∧ (f < dim ∨ f = 3) then u.len else 1) * G.dL f d i

/-- A body: the coordinates of its points. -/
def body (u : Scales K) (b : SingleBody K) : SingleBody K := { b with coords := b.coords.map (List.map (u.len * ·)) }

/-- All bodies. -/
def bodies (u : Scales K) (P : BodyPack K) : BodyPack K := { P with bodies := P.bodies.map u.body }

/-- The factor of the forces on the bodies (divided by the density; in the plane also by a length): accelerations times volumes. -/
def force (u : Scales K) (dim : ℕ) : K := u.vel / u.time * u.len ^ dim

end Scales

/-- A regularised delta function of a distance and a width has the unit of an inverse length. -/
def KernelFree [LinearOrder K] (kernel : DeltaKernel K) : Prop := ∀ l : K, 0 < l → ∀ r w, kernel (l * r) (l * w) = (kernel r w).map ((1 / l) * ·)

/-- What a linear solver does not depend on: multiplying the matrix, or the guess and the right-hand side, by a number only multiplies its
result. Elimination and Krylov methods with relative tolerances, in exact arithmetic, are of this kind. -/
def UnitFree (solve : LinSolve K) : Prop :=
  ∀ α c : K, α ≠ 0 → c ≠ 0 → ∀ (A : Mat K) (guess rhs : ℤ → K),
    solve (fun i j => α * A i j) (fun i => c * guess i) (fun i => α * c * rhs i) = (solve A guess rhs).map fun x i => c * x i

/-- The same for a solver that does not depend on the factors of the single equations either, as elimination or methods preconditioned with the
diagonal. -/
def RowFree (solve : LinSolve K) : Prop :=
  ∀ (α : ℤ → K) (c : K), (∀ i, α i ≠ 0) → c ≠ 0 → ∀ (A : Mat K) (guess rhs : ℤ → K),
    solve (fun i j => α i * A i j) (fun i => c * guess i) (fun i => α i * c * rhs i) = (solve A guess rhs).map fun x i => c * x i

/-- The same for a solver that does not depend on the units of the single unknowns either. -/
def DiagFree (solve : LinSolve K) : Prop :=
  ∀ α γ : ℤ → K, (∀ i, α i ≠ 0) → (∀ i, γ i ≠ 0) → ∀ (A : Mat K) (guess rhs : ℤ → K),
    solve (fun i j => α i * A i j / γ j) (fun i => γ i * guess i) (fun i => α i * rhs i) = (solve A guess rhs).map fun x i => γ i * x i

/-- The numbers of a state of the flow in the other units. -/
structure InUnits (u : Scales K) (s s' : NSState K) : Prop where
  velocity : ∀ i, s'.U i = u.vel * s.U i
  pressure : ∀ i, s'.p i = u.vel ^ 2 * s.p i
  time : s'.t = u.time * s.t
  step : s'.ite = s.ite

/-- The numbers of a file in the other units. -/
structure FileInUnits (u : Scales K) (file file' : H5File K) : Prop where
  velocity : ∀ name ∈ ["/u", "/v", "/w"], file'.data name = (file.data name).map (List.map (u.vel * ·))
  pressure : file'.data "/p" = (file.data "/p").map (List.map (u.vel ^ 2 * ·))
  convection : ∀ i : ℕ, file'.data ("/convection/" ++ toString i) = (file.data ("/convection/" ++ toString i)).map (List.map (u.vel / u.time * ·))
  diffusion : ∀ i : ℕ, file'.data ("/diffusion/" ++ toString i) = (file.data ("/diffusion/" ++ toString i)).map (List.map (u.vel / u.time * ·))
  time : file'.time = file.time.map (u.time * ·)

/-- The numbers of a state with bodies in the other units. -/
structure BodiesInUnits (u : Scales K) (dim : ℕ) (s s' : IBState K) : Prop where
  flow : InUnits u s.ns s'.ns
  forces : ∀ i, s'.f i = u.force dim * s.f i

/-- A prescribed motion in two systems of units. -/
structure MotionInUnits (u : Scales K) (M M' : Motion K) : Prop where
  coordinates : ∀ t b, M'.coordinates (u.time * t) (u.bodies b) = u.bodies (M.coordinates t b)
  velocity : ∀ t b x, M'.velocity (u.time * t) (u.bodies b) (fun i => u.vel * x i) = fun i => u.vel * M.velocity t b x i

end PetIBM.Spec
