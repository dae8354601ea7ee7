/-
The lid-driven cavity, an example of a program that uses the library (`examples/api_examples/liddrivencavity2d/main.cpp`).
-/
import Verif.Model.NavierStokes
import Verif.Model.Xdmf

namespace PetIBM

variable {K : Type} [Field K]

/-- The matrices of step 5, `Dbc` and `Lbc` by the contexts of their shell matrices. (`examples/api_examples/liddrivencavity2d/main.cpp` 150-220) -/
structure CavityOps (K : Type) where
  D : Mat K
  Dbc : Modifiers K
  G : Mat K
  Lbc : Modifiers K
  A : Mat K
  BNG : Mat K
  DBNG : Mat K

/-- Step 5, `examples/api_examples/liddrivencavity2d/main.cpp` 166-205. A null space attached to a matrix does not change the matrix; what the
linear solver does with it is part of the linear solver. -/
def cavityOperators (debug : Bool) (L : Layout) (G : Geom K) (dt nu : K) (B : ℕ → Boundary K) : Except Error (CavityOps K) := do
  let (D, Dbc) ← createDivergence debug L G false B
  let Gr ← createGradient debug L G false
  let (Lap, Lbc) ← createLaplacian debug L G B
  let A := Mat.shift (Mat.scale Lap (-nu)) (1 / dt)
  let BN ← createBnHead L.UN Lap dt nu 1
  let BNG := Mat.mul L.UN BN Gr
  let DBNG := Mat.mul L.UN D BNG
  return { D := D, Dbc := Dbc, G := Gr, Lbc := Lbc, A := A, BNG := BNG, DBNG := DBNG }

/-- What the loop changes: velocity, pressure, pressure increment, ghost points, work vectors of the convection operator, and the vector in which
`MatMultAdd` of a shell matrix puts the product before it is added. (`examples/api_examples/liddrivencavity2d/main.cpp` 267-350) -/
structure CavityState (K : Type) where
  U : ℤ → K
  p : ℤ → K
  dP : ℤ → K
  B : ℕ → Boundary K
  loc : ℕ → ℕ → ℤ → K
  work : ℤ → K

/-- One pass of the loop of step 8, `examples/api_examples/liddrivencavity2d/main.cpp` 267-346. The error code of `MatMultAdd(N, …)` is not looked
at (280). -/
def cavityStep (L : Layout) (G : Geom K) (dt nu : K) (O : CavityOps K) (vSolve pSolve : LinSolve K) (s : CavityState K) :
    Except Error (CavityState K) := do
  let rhs1 := vec L.UN (Mat.mult L.pN O.G s.p)
  let (rhs1, work, loc) : (ℤ → K) × (ℤ → K) × (ℕ → ℕ → ℤ → K) := match convectionMult L G s.B s.loc s.U s.work with
    | .ok y => (fun i => rhs1 i + y i, y, fun r f => convectionLocal L s.B s.U s.loc r f)
    | .error _ => (rhs1, s.work, s.loc)
  let rhs1 := fun i => 1 / dt * s.U i + -1 * rhs1 i
  let B := fun r => (s.B r).updateEqs s.U dt
  let bc1 := vec L.UN (correctionMult L B O.Lbc)
  let rhs1 := fun i => rhs1 i + 1 * nu * bc1 i
  let U ← vSolve O.A s.U rhs1
  let U := vec L.UN U
  let rhs2 := vec L.pN (Mat.mult L.UN O.D U)
  let rhs2 := fun i => rhs2 i + vec L.pN (correctionMult L B O.Dbc) i
  let dP ← pSolve O.DBNG s.dP rhs2
  let dP := vec L.pN dP
  let rhs1 := vec L.UN (Mat.mult L.pN O.BNG dP)
  let U := fun i => U i + -1 * rhs1 i
  let p := fun i => s.p i + 1 * dP i
  let B := fun r => (B r).updateGhostValues U
  return { U := U, p := p, dP := dP, B := B, loc := loc, work := work }

/-- `for (int iter = start; iter <= end; iter++)`, line 267. (`examples/api_examples/liddrivencavity2d/main.cpp`) -/
def forUpTo {S : Type} (step : S → Except Error S) (iter stop : ℤ) (s : S) : Except Error S :=
  if iter ≤ stop then do
    let s ← step s
    forUpTo step (iter + 1) stop s
  else return s
termination_by (stop + 1 - iter).toNat

/-- `main`, `examples/api_examples/liddrivencavity2d/main.cpp` 62-351 after the settings have been read and the boundary objects `B` constructed.
The constants `start`, `end`, `dt` and `nu` (0, 2000, 0.01 and 0.01 in lines 79-85) are arguments. -/
def cavityMain (debug : Bool) (L : Layout) (G : Geom K) (start stop : ℤ) (dt nu : K) (flow : Option (FlowNode K)) (B : ℕ → Boundary K)
    (vSolve pSolve : LinSolve K) (outdir : String) (disk : Disk K) : Except Error (Disk K) := do
  let disk := gridWrite L G disk (outdir ++ "/grid.h5")
  let (U, p) ← setInitialConditions L G flow (fun _ => 0) fun _ => 0
  let B := fun r => (B r).setGhostICs U
  let O ← cavityOperators debug L G dt nu B
  let s ← forUpTo (cavityStep L G dt nu O vSolve pSolve) start stop
    { U := U, p := p, dP := fun _ => 0, B := B, loc := fun _ _ _ => 0, work := fun _ => 0 }
  solutionWrite L s.U s.p disk (outdir ++ "/0002000.h5")

end PetIBM
