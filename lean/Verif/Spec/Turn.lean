/-
The same flow with other names and orientations of the coordinate axes.
-/
import Verif.Spec.Poisson
import Verif.Spec.Convection
import Mathlib.Logic.Equiv.Defs

namespace PetIBM.Spec

variable {K : Type} [Field K] [LinearOrder K]

/-- Axis `d` of the first system of coordinates is axis `perm d` of the second one, with the opposite orientation if `flip d`. -/
structure Turn where
  perm : Equiv.Perm ℕ
  flip : ℕ → Bool

/-- Sign of a vector component along axis `d` in the second system. -/
def Turn.sign (t : Turn) (d : ℕ) : K := if t.flip d then -1 else 1

/-- A turn of the axes of a mesh: other directions stay, and periodic directions keep their orientation. -/
structure Turn.OK (t : Turn) (L : Layout) : Prop where
  rest : ∀ d, L.dim ≤ d → t.perm d = d ∧ t.flip d = false
  periodic : ∀ d, d < L.dim → L.periodic 0 d = true → t.flip d = false

/-- The cells of an axis, seen in the opposite direction. -/
def mirrored (a : Axis K) : Axis K := ⟨-a.max, -a.min, a.dL.reverse⟩

/-- Side `loc` in the second system. -/
def Turn.side (t : Turn) (loc : ℕ) : ℕ := 2 * t.perm (loc / 2) + if t.flip (loc / 2) then 1 - loc % 2 else loc % 2

/-- A boundary condition for component `f` at a side of direction `d` in the second system: a velocity is a component along axis `f`, a derivative
has the sign of `f` and that of `d`, the speed of convective boundaries is measured along axis `d`. -/
def Turn.condition (t : Turn) (f d : ℕ) (c : BCType × K) : BCType × K :=
  match c.1 with
  | .DIRICHLET => (.DIRICHLET, t.sign f * c.2)
  | .NEUMANN => (.NEUMANN, t.sign f * t.sign d * c.2)
  | .CONVECTIVE => (.CONVECTIVE, t.sign d * c.2)
  | type => (type, c.2)

/-- Grid point `s` of field `f` in the second system. -/
def Turn.point (t : Turn) (M : MeshInfo) (f : ℕ) (s : Stencil) : Stencil :=
  let x (e : ℕ) : ℤ :=
    let d := t.perm.symm e
    if t.flip d then (M.n f d : ℤ) - 1 - coordOf s d else coordOf s d
  ⟨x 2, x 1, x 0, s.c⟩

/-- The second configuration has the mesh and the boundary conditions of the first one, in the second system. -/
structure Turned (t : Turn) (L₁ L₂ : Layout) (axes₁ axes₂ : ℕ → Axis K) (T₁ T₂ : BCTable K) : Prop where
  dim : L₂.dim = L₁.dim
  turn : t.OK L₁
  periodic : ∀ d, d < L₁.dim → L₂.periodic 0 (t.perm d) = L₁.periodic 0 d
  axes : ∀ d, d < L₁.dim → axes₂ (t.perm d) = if t.flip d then mirrored (axes₁ d) else axes₁ d
  table : ∀ f loc, f < L₁.dim → loc < L₁.dim * 2 → T₂ (t.perm f) (t.side loc) = t.condition f (loc / 2) (T₁ f loc)

/-- `e'`, as a function of the coordinates in the second system, is the function `e` of the first one, times `c`. -/
def Turn.SameFunction (t : Turn) (c : K) (e e' : Expr K) : Prop :=
  ∀ (x y : ℕ → K), (∀ d, d < 3 → y (t.perm d) = t.sign d * x d) → ∀ time nu, e' (y 0) (y 1) (y 2) time nu = c * e (x 0) (x 1) (x 2) time nu

/-- The initial conditions of the second configuration are those of the first one, in the second system. -/
def Turn.SameFlow (t : Turn) (dim : ℕ) (flow₁ flow₂ : Option (FlowNode K)) : Prop :=
  ∃ nu es₁ es₂ p₁ p₂, flow₁ = some ⟨nu, some es₁, p₁⟩ ∧ flow₂ = some ⟨nu, some es₂, p₂⟩ ∧
    (∀ f, f < dim → ∃ e₁ e₂, es₁[f]? = some e₁ ∧ es₂[t.perm f]? = some e₂ ∧ t.SameFunction (t.sign f) e₁ e₂) ∧
    ((p₁ = none ∧ p₂ = none) ∨ ∃ e₁ e₂, p₁ = some e₁ ∧ p₂ = some e₂ ∧ t.SameFunction 1 e₁ e₂)

/-- The velocity `q₂` of the second mesh is the velocity `q₁` of the first one. -/
def Turn.SameVelocity (t : Turn) (debug : Bool) (L₁ L₂ : Layout) (q₁ q₂ : ℤ → K) : Prop :=
  ∀ f s i j, f < L₁.dim → Inside L₁.toMeshInfo f s → L₁.getPackedGlobalIndex debug f s = .ok i →
    L₂.getPackedGlobalIndex debug (t.perm f) (t.point L₁.toMeshInfo f s) = .ok j → q₂ j = t.sign f * q₁ i

/-- The pressure `p₂` of the second mesh is the pressure `p₁` of the first one, up to a constant. -/
def Turn.SamePressure (t : Turn) (debug : Bool) (L₁ L₂ : Layout) (p₁ p₂ : ℤ → K) : Prop :=
  ∃ c, ∀ s i j, Inside L₁.toMeshInfo 3 s → L₁.getPackedGlobalIndex debug 3 s = .ok i →
    L₂.getPackedGlobalIndex debug 3 (t.point L₁.toMeshInfo 3 s) = .ok j → p₂ j = p₁ i + c

end PetIBM.Spec
