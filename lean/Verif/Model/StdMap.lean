/-
`std::map<MatStencil, T>` with the ordering of `src/private/private.h`.
-/
import Verif.Model.Index

namespace PetIBM

/-- `operator<(const MatStencil&, const MatStencil&)`, `src/private/private.h` 20-34. -/
def stencilLt (l r : Stencil) : Bool :=
  if l.k < r.k then true
  else if l.k > r.k then false
  else if l.j < r.j then true
  else if l.j > r.j then false
  else if l.i < r.i then true
  else if l.i > r.i then false
  else if l.c < r.c then true
  else false

/-- `std::map<MatStencil, T>` (`include/petibm/type.h` 177, 193) as the list of its nodes in iteration order. The
red-black tree is not modelled; lookup and insertion only use `stencilLt`, as the C++ container does. -/
abbrev StencilMap (T : Type*) := List (Stencil × T)

namespace StencilMap

variable {T : Type*}

/-- `m[key] = val`. An existing node with an equivalent key is overwritten (and keeps its key). (`include/petibm/type.h` 177, 195) -/
def insert (m : StencilMap T) (key : Stencil) (val : T) : StencilMap T :=
  match m with
  | [] => [(key, val)]
  | (k', v') :: rest =>
    if stencilLt key k' then (key, val) :: (k', v') :: rest
    else if stencilLt k' key then (k', v') :: insert rest key val
    else (k', val) :: rest

/-- `m.find(key)`. (`include/petibm/type.h` 177, 195) -/
def find (m : StencilMap T) (key : Stencil) : Option T :=
  match m with
  | [] => none
  | (k', v') :: rest =>
    if stencilLt key k' then none
    else if stencilLt k' key then find rest key
    else some v'

/-- A sequence of assignments `m[key] = val`, starting from an empty map. (`include/petibm/type.h` 177, 195) -/
def ofAssignments (ops : List (Stencil × T)) : StencilMap T :=
  ops.foldl (fun m kv => insert m kv.1 kv.2) []

end StencilMap

end PetIBM
