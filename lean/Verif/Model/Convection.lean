/-
The convection operator.
-/
import Verif.Model.Local

namespace PetIBM

variable {K : Type} [Field K]

/-- The arrays `flux[f][k][j][i]` passed to the kernels. In 2D the code writes `flux[f][j][i]`; here `k = 0`. (`src/operators/createconvection.cpp` 40-195) -/
abbrev FluxArray (K : Type) := ℕ → ℤ → ℤ → ℤ → Except Error K

/-- `kernelU` in 2D, `src/operators/createconvection.cpp` 40-63. -/
def kernelU2 (G : Geom K) (flux : FluxArray K) (i j : ℤ) : Except Error K := do
  let uSelf ← flux 0 0 j i
  let uW := (uSelf + (← flux 0 0 j (i - 1))) / 2
  let uE := (uSelf + (← flux 0 0 j (i + 1))) / 2
  let uS := (uSelf + (← flux 0 0 (j - 1) i)) / 2
  let uN := (uSelf + (← flux 0 0 (j + 1) i)) / 2
  let vS := ((← flux 1 0 (j - 1) i) + (← flux 1 0 (j - 1) (i + 1))) / 2
  let vN := ((← flux 1 0 j i) + (← flux 1 0 j (i + 1))) / 2
  return (uE * uE - uW * uW) / G.dL 0 0 i + (vN * uN - vS * uS) / G.dL 0 1 j

/-- `kernelV` in 2D, `src/operators/createconvection.cpp` 66-89. -/
def kernelV2 (G : Geom K) (flux : FluxArray K) (i j : ℤ) : Except Error K := do
  let vSelf ← flux 1 0 j i
  let uW := ((← flux 0 0 j (i - 1)) + (← flux 0 0 (j + 1) (i - 1))) / 2
  let uE := ((← flux 0 0 j i) + (← flux 0 0 (j + 1) i)) / 2
  let vW := (vSelf + (← flux 1 0 j (i - 1))) / 2
  let vE := (vSelf + (← flux 1 0 j (i + 1))) / 2
  let vS := (vSelf + (← flux 1 0 (j - 1) i)) / 2
  let vN := (vSelf + (← flux 1 0 (j + 1) i)) / 2
  return (uE * vE - uW * vW) / G.dL 1 0 i + (vN * vN - vS * vS) / G.dL 1 1 j

/-- `kernelU` in 3D, `src/operators/createconvection.cpp` 92-124. -/
def kernelU3 (G : Geom K) (flux : FluxArray K) (i j k : ℤ) : Except Error K := do
  let uSelf ← flux 0 k j i
  let uW := (uSelf + (← flux 0 k j (i - 1))) / 2
  let uE := (uSelf + (← flux 0 k j (i + 1))) / 2
  let uS := (uSelf + (← flux 0 k (j - 1) i)) / 2
  let uN := (uSelf + (← flux 0 k (j + 1) i)) / 2
  let uB := (uSelf + (← flux 0 (k - 1) j i)) / 2
  let uF := (uSelf + (← flux 0 (k + 1) j i)) / 2
  let vS := ((← flux 1 k (j - 1) i) + (← flux 1 k (j - 1) (i + 1))) / 2
  let vN := ((← flux 1 k j i) + (← flux 1 k j (i + 1))) / 2
  let wB := ((← flux 2 (k - 1) j i) + (← flux 2 (k - 1) j (i + 1))) / 2
  let wF := ((← flux 2 k j i) + (← flux 2 k j (i + 1))) / 2
  return (uE * uE - uW * uW) / G.dL 0 0 i + (vN * uN - vS * uS) / G.dL 0 1 j + (wF * uF - wB * uB) / G.dL 0 2 k

/-- `kernelV` in 3D, `src/operators/createconvection.cpp` 127-160. -/
def kernelV3 (G : Geom K) (flux : FluxArray K) (i j k : ℤ) : Except Error K := do
  let vSelf ← flux 1 k j i
  let uW := ((← flux 0 k j (i - 1)) + (← flux 0 k (j + 1) (i - 1))) / 2
  let uE := ((← flux 0 k j i) + (← flux 0 k (j + 1) i)) / 2
  let vW := (vSelf + (← flux 1 k j (i - 1))) / 2
  let vE := (vSelf + (← flux 1 k j (i + 1))) / 2
  let vS := (vSelf + (← flux 1 k (j - 1) i)) / 2
  let vN := (vSelf + (← flux 1 k (j + 1) i)) / 2
  let vB := (vSelf + (← flux 1 (k - 1) j i)) / 2
  let vF := (vSelf + (← flux 1 (k + 1) j i)) / 2
  let wB := ((← flux 2 (k - 1) j i) + (← flux 2 (k - 1) (j + 1) i)) / 2
  let wF := ((← flux 2 k j i) + (← flux 2 k (j + 1) i)) / 2
  return (uE * vE - uW * vW) / G.dL 1 0 i + (vN * vN - vS * vS) / G.dL 1 1 j + (wF * vF - wB * vB) / G.dL 1 2 k

/-- `kernelW`, `src/operators/createconvection.cpp` 163-195. -/
def kernelW3 (G : Geom K) (flux : FluxArray K) (i j k : ℤ) : Except Error K := do
  let wSelf ← flux 2 k j i
  let uW := ((← flux 0 k j (i - 1)) + (← flux 0 (k + 1) j (i - 1))) / 2
  let uE := ((← flux 0 k j i) + (← flux 0 (k + 1) j i)) / 2
  let vS := ((← flux 1 k (j - 1) i) + (← flux 1 (k + 1) (j - 1) i)) / 2
  let vN := ((← flux 1 k j i) + (← flux 1 (k + 1) j i)) / 2
  let wW := (wSelf + (← flux 2 k j (i - 1))) / 2
  let wE := (wSelf + (← flux 2 k j (i + 1))) / 2
  let wS := (wSelf + (← flux 2 k (j - 1) i)) / 2
  let wN := (wSelf + (← flux 2 k (j + 1) i)) / 2
  let wB := (wSelf + (← flux 2 (k - 1) j i)) / 2
  let wF := (wSelf + (← flux 2 (k + 1) j i)) / 2
  return (uE * wE - uW * wW) / G.dL 2 0 i + (vN * wN - vS * wS) / G.dL 2 1 j + (wF * wF - wB * wB) / G.dL 2 2 k

/-- Choice of the kernel: `createConvection` 400-411 binds `ConvectionMult2D` or `ConvectionMult3D`, whose loops
(lines 237-245, 305-321) call the kernel of the component. (`src/operators/createconvection.cpp`) -/
def convectionKernel (dim : ℕ) (G : Geom K) (flux : FluxArray K) (f : ℕ) (i j k : ℤ) : Except Error K :=
  if dim = 2 then
    match f with
    | 0 => kernelU2 G flux i j
    | 1 => kernelV2 G flux i j
    | _ => .error .ub
  else
    match f with
    | 0 => kernelU3 G flux i j k
    | 1 => kernelV3 G flux i j k
    | 2 => kernelW3 G flux i j k
    | _ => .error .ub

/-- `qLocal` of rank `r` after the scatter and after copying the ghost values, lines 216-221 (3D: 284-289). `v` is the
content before: the vectors are created once (lines 29-36, zero) and reused. (`src/operators/createconvection.cpp`) -/
def convectionLocal (L : Layout) (B : ℕ → Boundary K) (q : ℤ → K) (v : ℕ → ℕ → ℤ → K) (r : ℕ) : ℕ → ℤ → K :=
  (B r).copyValues2LocalVecs fun f => scatterLocal L f r q (v r f)

/-- The assignments to `y` in `ConvectionMult2D` 199-263 and `ConvectionMult3D` 267-339, all ranks. The entry
`yArry[f][k][j][i]` is the entry of the packed vector with the packed index of the point. (`src/operators/createconvection.cpp`) -/
def convectionAssign (L : Layout) (G : Geom K) (B : ℕ → Boundary K) (q : ℤ → K) (v : ℕ → ℕ → ℤ → K) :
    Except Error (List (ℤ × K)) := do
  let a ← (List.range L.mpiSize).mapM fun r => (List.range L.dim).mapM fun f => (L.box f r).mapM fun p => do
    let idx ← L.getPackedGlobalIndex false f ⟨p.2.2, p.2.1, p.1, 0⟩
    let x ← convectionKernel L.dim G (fun g => readLocal L g r (convectionLocal L B q v r g)) f p.1 p.2.1 p.2.2
    return (idx, x)
  return a.flatMap fun b => b.flatMap id

/-- `MatMult(N, x, y)` with the shell matrix of `createConvection`, `src/operators/createconvection.cpp` 369-414. -/
def convectionMult (L : Layout) (G : Geom K) (B : ℕ → Boundary K) (v : ℕ → ℕ → ℤ → K) (q y : ℤ → K) :
    Except Error (ℤ → K) := do
  return vecAssign y (← convectionAssign L G B q v)

end PetIBM
