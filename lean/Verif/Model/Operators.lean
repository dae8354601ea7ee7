/-
Gradient, divergence and Laplacian operators.
-/
import Verif.Model.Matrix
import Verif.Model.Boundary

namespace PetIBM

variable {K : Type} [Field K]

/-! ### Gradient -/

/-- `getNeighbor[f](i, j, k)`, `src/operators/creategradient.cpp` 47-61. -/
def gradientNeighbors (f : ℕ) (i j k : ℤ) : List Stencil :=
  match f with
  | 0 => [⟨k, j, i, 0⟩, ⟨k, j, i + 1, 0⟩]
  | 1 => [⟨k, j, i, 0⟩, ⟨k, j + 1, i, 0⟩]
  | _ => [⟨k, j, i, 0⟩, ⟨k + 1, j, i, 0⟩]

/-- `kernel[f](i, j, k)`, `src/operators/creategradient.cpp` 64-87. -/
def gradientKernel (G : Geom K) (normalize : Bool) (f : ℕ) (i j k : ℤ) : List K :=
  if normalize then [-1, 1]
  else
    let v := match f with
      | 0 => 1 / G.dL 0 0 i
      | 1 => 1 / G.dL 1 1 j
      | _ => 1 / G.dL 2 2 k
    [-v, v]

/-- Body of the loops, `src/operators/creategradient.cpp` 107-127. -/
def gradientRow (debug : Bool) (L : Layout) (G : Geom K) (normalize : Bool) (f : ℕ) (p : ℕ × ℕ × ℕ) :
    Except Error (List (Entry K)) := do
  let (i, j, k) := p
  let loc := gradientNeighbors f i j k
  let values := gradientKernel G normalize f i j k
  let rId ← match loc with
    | s :: _ => L.getPackedGlobalIndex debug f s
    | [] => .error .ub
  (loc.zip values).mapM fun sv => do
    let cId ← L.getPackedGlobalIndex debug 3 sv.1
    return ⟨rId, cId, sv.2⟩

/-- `createGradient`, `src/operators/creategradient.cpp` 36-135, all ranks. -/
def createGradient (debug : Bool) (L : Layout) (G : Geom K) (normalize : Bool) : Except Error (Mat K) := do
  let rows ← (List.range L.mpiSize).mapM fun r => (List.range L.dim).mapM fun f =>
    (L.box f r).mapM (gradientRow debug L G normalize f)
  assemble L.UN L.pN (rows.flatMap fun a => a.flatMap fun b => b.flatten) []

/-! ### Boundary modifiers, shared by divergence and Laplacian -/

/-- `RowModifier`, `include/petibm/type.h` 184-188. -/
structure RowModifier (K : Type) where
  row : ℤ
  coeff : K

/-- `MatrixModifier` of every rank and field, `include/petibm/type.h` 191. -/
abbrev Modifiers (K : Type) := ℕ → ℕ → StencilMap (RowModifier K)

/-- `modifier[f][s]`: `std::map::operator[]` gives `{0, 0.0}` for an absent key. (It also stores it, which has no
further effect.) (`src/operators/createdivergence.cpp` 240) -/
def modifierAt (m : StencilMap (RowModifier K)) (s : Stencil) : RowModifier K := (m.find s).getD ⟨0, 0⟩

/-- The registered ghost points of all ranks in loop order with rank and field: `for f`, `for bd : bds[f]`,
`if (bd->onThisProc)`, `for pt : bd->points`. (`src/operators/createdivergence.cpp` 230-242) -/
def boundaryLoop (L : Layout) (B : ℕ → Boundary K) : List (ℕ × ℕ × Stencil × GhostPointInfo K) :=
  (List.range L.mpiSize).flatMap fun r => (List.range L.dim).flatMap fun f => ((B r).getD f []).flatMap fun b =>
    if b.onThisProc then b.points.map fun pt => (r, f, pt.1, pt.2) else []

/-- The `ADD_VALUES` loop: `src/operators/createdivergence.cpp` 230-242, `src/operators/createlaplacian.cpp`
231-243. -/
def boundaryEntries (L : Layout) (B : ℕ → Boundary K) (mods : Modifiers K) : List (Entry K) :=
  (boundaryLoop L B).map fun (r, f, s, p) =>
    let m := modifierAt (mods r f) s
    ⟨m.row, p.targetPackedId, m.coeff * p.a0⟩

/-- `DCorrectionMult`, `src/operators/createdivergence.cpp` 45-77, and `LCorrectionMult`,
`src/operators/createlaplacian.cpp` 45-78. -/
def correctionMult (L : Layout) (B : ℕ → Boundary K) (mods : Modifiers K) : ℤ → K :=
  addVector ((boundaryLoop L B).map fun (r, f, s, p) =>
    let m := modifierAt (mods r f) s
    (m.row, m.coeff * p.a1))

/-! ### Divergence -/

/-- `getNeighbor[f](i, j, k)`, `src/operators/createdivergence.cpp` 120-131. -/
def divergenceNeighbor (f : ℕ) (i j k : ℤ) : Stencil :=
  match f with
  | 0 => ⟨k, j, i - 1, 0⟩
  | 1 => ⟨k, j - 1, i, 0⟩
  | _ => ⟨k - 1, j, i, 0⟩

/-- `kernel[f](i, j, k)`, `src/operators/createdivergence.cpp` 134-151. -/
def divergenceKernel (G : Geom K) (normalize : Bool) (f : ℕ) (i j k : ℤ) : K :=
  if normalize then 1
  else match f with
    | 0 => G.dL 0 1 j * G.dL 0 2 k
    | 1 => G.dL 1 0 i * G.dL 1 2 k
    | _ => G.dL 2 0 i * G.dL 2 1 j

/-- Body of the loop over fields, `src/operators/createdivergence.cpp` 186-222: two entries and the assignments to
`modifier[field]`. -/
def divergenceFaces (debug : Bool) (L : Layout) (G : Geom K) (normalize : Bool) (self : ℤ) (p : ℕ × ℕ × ℕ) (f : ℕ) :
    Except Error (List (Entry K) × List (Stencil × RowModifier K)) := do
  let (i, j, k) := p
  let value := divergenceKernel G normalize f i j k
  let target : Stencil := ⟨k, j, i, 0⟩
  let targetIdx ← L.getPackedGlobalIndex debug f target
  let m1 := if targetIdx = -1 then [(target, ⟨self, value⟩)] else []
  let target' := divergenceNeighbor f i j k
  let targetIdx' ← L.getPackedGlobalIndex debug f target'
  let m2 := if targetIdx' = -1 then [(target', ⟨self, -value⟩)] else []
  return ([⟨self, targetIdx, value⟩, ⟨self, targetIdx', -value⟩], m1 ++ m2)

/-- Body of the loops over the cells, lines 175-223. The result has one item per field. (`src/operators/createdivergence.cpp`) -/
def divergenceRow (debug : Bool) (L : Layout) (G : Geom K) (normalize : Bool) (p : ℕ × ℕ × ℕ) :
    Except Error (List (List (Entry K) × List (Stencil × RowModifier K))) := do
  let (i, j, k) := p
  let self ← L.getGlobalIndex debug 3 ⟨k, j, i, 0⟩
  (List.range L.dim).mapM (divergenceFaces debug L G normalize self p)

/-- `createDivergence`, `src/operators/createdivergence.cpp` 101-262: the matrix and the context of the correction. -/
def createDivergence (debug : Bool) (L : Layout) (G : Geom K) (normalize : Bool) (B : ℕ → Boundary K) :
    Except Error (Mat K × Modifiers K) := do
  let rows ← (List.range L.mpiSize).mapM fun r => (L.box 3 r).mapM (divergenceRow debug L G normalize)
  let mods : Modifiers K := fun r f =>
    StencilMap.ofAssignments ((rows.getD r []).flatMap fun cell => (cell.getD f ([], [])).2)
  let D ← assemble L.pN L.UN (rows.flatMap fun a => a.flatMap fun cell => cell.flatMap (·.1)) (boundaryEntries L B mods)
  return (D, mods)

/-! ### Laplacian -/

/-- `getStencils`, `src/operators/createlaplacian.cpp` 186-203. -/
def laplacianStencils (dim : ℕ) (i j k : ℤ) : List Stencil :=
  if dim = 2 then [⟨k, j, i, 0⟩, ⟨k, j, i - 1, 0⟩, ⟨k, j, i + 1, 0⟩, ⟨k, j - 1, i, 0⟩, ⟨k, j + 1, i, 0⟩]
  else [⟨k, j, i, 0⟩, ⟨k, j, i - 1, 0⟩, ⟨k, j, i + 1, 0⟩, ⟨k, j - 1, i, 0⟩, ⟨k, j + 1, i, 0⟩, ⟨k - 1, j, i, 0⟩,
    ⟨k + 1, j, i, 0⟩]

/-- The off-diagonal values, `setRowValues`, `src/operators/createlaplacian.cpp` 131-146. -/
def laplacianOffDiag (dim : ℕ) (G : Geom K) (f : ℕ) (i j k : ℤ) : List K :=
  (List.range dim).flatMap fun dir =>
    let self := if dir = 0 then i else if dir = 1 then j else k
    let dLSelf := G.dL f dir self
    let dLNeg := G.coord f dir self - G.coord f dir (self - 1)
    let dLPos := G.coord f dir (self + 1) - G.coord f dir self
    [1 / (dLNeg * dLSelf), 1 / (dLPos * dLSelf)]

/-- `values`, lines 120-149. (`src/operators/createlaplacian.cpp`) -/
def laplacianValues (dim : ℕ) (G : Geom K) (f : ℕ) (i j k : ℤ) : List K :=
  let v := laplacianOffDiag dim G f i j k;
  (-(v.foldl (· + ·) 0)) :: v

/-- `setRowValues`, `src/operators/createlaplacian.cpp` 108-162: the entries of the row and the assignments to
`rowModifiers`. -/
def laplacianRow (debug : Bool) (L : Layout) (G : Geom K) (f : ℕ) (p : ℕ × ℕ × ℕ) :
    Except Error (List (Entry K) × List (Stencil × RowModifier K)) := do
  let (i, j, k) := p
  let stencils := laplacianStencils L.dim i j k
  let cols ← stencils.mapM (L.getPackedGlobalIndex debug f)
  let values := laplacianValues L.dim G f i j k
  match cols with
  | [] => .error .ub
  | row :: _ =>
    let items := stencils.zip (cols.zip values)
    return (items.map fun x => ⟨row, x.2.1, x.2.2⟩,
      (items.filter fun x => decide (x.2.1 = -1)).map fun x => (x.1, ⟨row, x.2.2⟩))

/-- `createLaplacian`, `src/operators/createlaplacian.cpp` 170-263. -/
def createLaplacian (debug : Bool) (L : Layout) (G : Geom K) (B : ℕ → Boundary K) :
    Except Error (Mat K × Modifiers K) := do
  let rows ← (List.range L.mpiSize).mapM fun r => (List.range L.dim).mapM fun f =>
    (L.box f r).mapM (laplacianRow debug L G f)
  let mods : Modifiers K := fun r f => StencilMap.ofAssignments (((rows.getD r []).getD f []).flatMap (·.2))
  let A ← assemble L.UN L.UN (rows.flatMap fun a => a.flatMap fun b => b.flatMap (·.1)) (boundaryEntries L B mods)
  return (A, mods)

end PetIBM
