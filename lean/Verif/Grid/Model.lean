import Verif.Py
/-!
# Model of `reservoirflow/grids/regular_cartesian.py`: numbering, interior/boundary, neighbours

Arrays of points (`(…,3)` arrays) are modelled as arrays whose entries are coordinate triples, so the trailing axis of
length three is left out of the shapes. `fmt` arguments only change the Python container; lists are used throughout
(sets are lists whose order is not relied upon). Caches are treated separately (`Verif/Cache`).
-/
namespace RF

/-- Constructor arguments of `RegularCartesian` that fix the topology. The three `assert n >= 1` of `__init__` are the
three proof fields. (regular_cartesian.py l.31-163, asserts l.154-156) -/
structure Dims where
  nx : ℕ
  ny : ℕ
  nz : ℕ
  unify : Bool
  hx : 1 ≤ nx
  hy : 1 ≤ ny
  hz : 1 ≤ nz

/-- `RegularCartesian.__init__` as far as it accepts or refuses sizes. (l.154-157) -/
def Dims.init (nx ny nz : ℤ) (unify : Bool) : Except Err Dims :=
  if h : 1 ≤ nx ∧ 1 ≤ ny ∧ 1 ≤ nz then
    .ok ⟨nx.toNat, ny.toNat, nz.toNat, unify, by omega, by omega, by omega⟩
  else .error .assertion

/-- Flow directions; the code's `"-"` is the empty list, `"xz"` is `[x, z]`. (regular_cartesian.py l.270-307) -/
abbrev FDir := List Axis

/-- numpy `argmax`: first position of the maximum. (external code, called at regular_cartesian.py l.286) -/
def argmax (l : List ℕ) : ℕ := l.idxOf (l.foldr max 0)

/-- numpy `argmin`: first position of the minimum. (external code, called at regular_cartesian.py l.294) -/
def argmin (l : List ℕ) : ℕ :=
  match l with
  | [] => 0
  | a :: t => l.idxOf (t.foldr min a)

namespace Dims

/-- `get_D` (l.169-183). -/
def getD (g : Dims) : ℕ :=
  (if g.nx > 1 then 1 else 0) + (if g.ny > 1 then 1 else 0) + (if g.nz > 1 then 1 else 0)

/-- Body of `get_fdir` as a function of `self.D` and of the remembered `self.shape` (l.270-307). The code has no final
`else` in the inner branches; they are unreachable because `argmax`/`argmin` of a triple is below 3. -/
def fdirFrom (D : ℕ) (shape : List ℕ) : FDir :=
  if D = 0 then []
  else if D = 1 then
    (if argmax shape = 0 then [.x] else if argmax shape = 1 then [.y] else [.z])
  else if D = 2 then
    (if argmin shape = 2 then [.x, .y] else if argmin shape = 1 then [.x, .z] else [.y, .z])
  else [.x, .y, .z]

/-- `get_fdir` right after `get_shape(False)` stored the interior shape (l.270-307). -/
def getFdir (g : Dims) : FDir := fdirFrom g.getD [g.nx, g.ny, g.nz]

/-- `get_shape(boundary)` (l.186-222), as `(nx, ny, nz)`. -/
def getShape (g : Dims) (boundary : Bool) : ℕ × ℕ × ℕ :=
  if boundary then
    (if .x ∈ g.getFdir then g.nx + 2 else g.nx,
     if .y ∈ g.getFdir then g.ny + 2 else g.ny,
     if .z ∈ g.getFdir then g.nz + 2 else g.nz)
  else (g.nx, g.ny, g.nz)

/-- `self.nx_b`. -/ def nxb (g : Dims) : ℕ := (g.getShape true).1
/-- `self.ny_b`. -/ def nyb (g : Dims) : ℕ := (g.getShape true).2.1
/-- `self.nz_b`. -/ def nzb (g : Dims) : ℕ := (g.getShape true).2.2

/-- `get_n(boundary)` = `np.prod(shape)` (l.224-245). -/
def getN (g : Dims) (boundary : Bool) : ℕ :=
  let s := g.getShape boundary; s.1 * s.2.1 * s.2.2

/-- `get_n_max(boundary)` = `max(shape)` (l.247-268). -/
def getNMax (g : Dims) (boundary : Bool) : ℕ :=
  let s := g.getShape boundary; max s.1 (max s.2.1 s.2.2)

/-- `get_fshape(boundary, points=False)` (l.309-378). -/
def getFshape (g : Dims) (boundary : Bool) : List ℕ :=
  let s := g.getShape boundary
  let nx := s.1; let ny := s.2.1; let nz := s.2.2
  if g.getFdir = [.x, .y, .z] then [nz, ny, nx]
  else if !g.unify then
    (if g.getFdir = [] then [1]
     else if g.getFdir = [.x] then [nx]
     else if g.getFdir = [.y] then [ny]
     else if g.getFdir = [.z] then [nz]
     else if g.getFdir = [.x, .y] then [ny, nx]
     else if g.getFdir = [.x, .z] then [nz, nx]
     else [nz, ny])
  else
    (if g.getFdir = [] then [1, 1, 1]
     else if g.getFdir = [.x] then [1, 1, nx]
     else if g.getFdir = [.y] then [1, ny, 1]
     else if g.getFdir = [.z] then [nz, 1, 1]
     else if g.getFdir = [.x, .y] then [1, ny, nx]
     else if g.getFdir = [.x, .z] then [nz, 1, nx]
     else [nz, ny, 1])

/-- The `remove` argument of `remove_boundaries`. (regular_cartesian.py l.998-1004) -/
inductive Side where | both | left | right
  deriving DecidableEq, Repr

/-- The slice `l:r` chosen by `remove` (l.1055-1066). -/
def Side.ix : Side → Ix
  | .both => .slice 1 true
  | .left => .slice 1 false
  | .right => .slice 0 true

/-- The index expression `remove_boundaries` applies to an array of the flow shape (l.1068-1100). -/
def removeIx (g : Dims) (s : Side) : List Ix :=
  let c := s.ix
  if g.getD = 3 then [c, c, c]
  else if !g.unify then
    (if g.getD = 0 then [.full] else if g.getD = 1 then [c] else [c, c])
  else
    (if g.getFdir = [] then [.full, .full, .full]
     else if g.getFdir = [.x] then [.full, .full, c]
     else if g.getFdir = [.y] then [.full, c, .full]
     else if g.getFdir = [.z] then [c, .full, .full]
     else if g.getFdir = [.x, .y] then [.full, c, c]
     else if g.getFdir = [.x, .z] then [c, .full, c]
     else [c, c, .full])

/-- `remove_boundaries(in_data, points, remove)` (l.998-1114): reshape to the flow shape if needed (otherwise
`ValueError`), slice, and flatten again if it was reshaped. -/
def removeBoundaries {α} (g : Dims) (a : NdArr α) (s : Side := .both) : Except Err (NdArr α) :=
  if a.shape = g.getFshape true then .ok (a.select (g.removeIx s))
  else match a.reshape (g.getFshape true) with
    | .error e => .error e
    | .ok b => .ok (b.select (g.removeIx s)).flatten

/-- The slices `extract_boundaries` concatenates (l.1172-1222). -/
def extractIx (g : Dims) : List (List Ix) :=
  let inner : Ix := .slice 1 true
  if g.getD = 3 then
    [[.full, .ends, .full], [.full, inner, .ends], [.ends, inner, inner]]
  else if !g.unify then
    (if g.getD = 0 then [[.full]]
     else if g.getD = 1 then [[.ends]]
     else [[.ends, .full], [inner, .ends]])
  else
    (if g.getFdir = [] then [[.full, .full, .full]]
     else if g.getFdir = [.x] then [[.full, .full, .ends]]
     else if g.getFdir = [.y] then [[.full, .ends, .full]]
     else if g.getFdir = [.z] then [[.ends, .full, .full]]
     else if g.getFdir = [.x, .y] then [[.full, .ends, .full], [.full, inner, .ends]]
     else if g.getFdir = [.x, .z] then [[.ends, .full, .full], [inner, .full, .ends]]
     else [[.ends, .full, .full], [inner, .ends, .full]])

/-- `extract_boundaries(in_data, points=True)`: the concatenated slices, unsorted (l.1116-1236). -/
def extractBoundaries {α} (g : Dims) (a : NdArr α) : Except Err (List α) :=
  match (if a.shape = g.getFshape true then .ok a else a.reshape (g.getFshape true) : Except Err (NdArr α)) with
  | .error e => .error e
  | .ok b => .ok (g.extractIx.flatMap fun ixs => (b.select ixs).data)

/-- `extract_boundaries(in_data, points=False)` on scalars that have an order: as above, then `np.sort` (l.1224-1225). -/
def extractBoundariesSorted {α} (le : α → α → Prop) [DecidableRel le] (g : Dims) (a : NdArr α) : Except Err (List α) :=
  (g.extractBoundaries a).map (·.insertionSort le)

/-- `get_order("natural", boundary, fshape=False)` (l.380-423); the branch with `fshape=True` only reshapes. -/
def getOrder (g : Dims) (boundary : Bool) : Except Err (List ℕ) :=
  let order := NdArr.ofList (List.range (g.getN true))
  if boundary then .ok order.data else (g.removeBoundaries order).map (·.data)

/-- `get_order(type, …)` refuses every type but "natural" (l.404-410). -/
def getOrderOf (g : Dims) (type : String) (boundary : Bool) : Except Err (List ℕ) :=
  if type = "natural" then g.getOrder boundary else .error .value

/-- `get_cells_id(boundary, False, fmt)` (l.588-630). -/
def getCellsId (g : Dims) (boundary : Bool) : Except Err (List ℕ) := g.getOrder boundary

/-- `get_cells_i(boundary, False, fmt)` = `np.arange(n)` (l.513-555). -/
def getCellsI (g : Dims) (boundary : Bool) : List ℕ := List.range (g.getN boundary)

/-- pyvista `ExplicitStructuredGrid.cell_id` on a grid of `s` cells: `np.ravel_multi_index(coords, s, order='F')`,
`None` when a coordinate is outside (external code). (called at regular_cartesian.py l.584-586) -/
def pvCellId (s : ℕ × ℕ × ℕ) (c : ℤ × ℤ × ℤ) : Option ℕ :=
  if 0 ≤ c.1 ∧ c.1 < s.1 ∧ 0 ≤ c.2.1 ∧ c.2.1 < s.2.1 ∧ 0 ≤ c.2.2 ∧ c.2.2 < s.2.2 then
    some (c.1.toNat + s.1 * (c.2.1.toNat + s.2.1 * c.2.2.toNat))
  else none

/-- pyvista `ExplicitStructuredGrid.cell_coords` on a grid of `s` cells: `np.unravel_index(id, s, order='F')`,
`None` outside (external code). (called at regular_cartesian.py l.658-660, 698) -/
def pvCellCoords (s : ℕ × ℕ × ℕ) (id : ℤ) : Option (ℕ × ℕ × ℕ) :=
  if 0 ≤ id ∧ id < (s.1 * s.2.1 * s.2.2 : ℕ) then
    some (id.toNat % s.1, id.toNat / s.1 % s.2.1, id.toNat / s.1 / s.2.1)
  else none

/-- `get_cell_id(coords, boundary)` for one cell (l.557-586). -/
def getCellId (g : Dims) (c : ℤ × ℤ × ℤ) (boundary : Bool) : Option ℕ := pvCellId (g.getShape boundary) c

/-- `get_cell_coords(id, boundary)` for one cell (l.632-660); `tuple(None)` is a `TypeError`. -/
def getCellCoords (g : Dims) (id : ℤ) (boundary : Bool) : Except Err (ℕ × ℕ × ℕ) :=
  match pvCellCoords (g.getShape boundary) id with
  | some c => .ok c
  | none => .error .type

/-- `get_cells_coords(boundary, False, fmt)` (l.662-710): the ids of the requested cells looked up on the pyvista grid
*with* boundary cells. -/
def getCellsCoords (g : Dims) (boundary : Bool) : Except Err (List (ℕ × ℕ × ℕ)) :=
  match g.getCellsId boundary with
  | .error e => .error e
  | .ok ids => ids.mapM fun (id : ℕ) => g.getCellCoords (id : ℤ) true

/-- `get_boundaries("id", fmt)` (l.1238-1272): sorted ids of the boundary cells. `get_cells_id(True, True)` has the flow
shape. -/
def getBoundariesId (g : Dims) : Except Err (List ℕ) :=
  match (NdArr.ofList (List.range (g.getN true))).reshape (g.getFshape true) with
  | .error e => .error e
  | .ok a => g.extractBoundariesSorted (· ≤ ·) a

/-- `get_boundaries("coords", fmt)` (l.1271-1273). -/
def getBoundariesCoords (g : Dims) : Except Err (List (ℕ × ℕ × ℕ)) :=
  match g.getCellsCoords true with
  | .error e => .error e
  | .ok cs => match (NdArr.ofList cs).reshape (g.getFshape true) with
    | .error e => .error e
    | .ok a => g.extractBoundaries a

/-- Result of the `"dict"` format: the lists under the keys `"x"`, `"y"`, `"z"`. (regular_cartesian.py l.855-917) -/
structure ByAxis (α : Type*) where
  x : List α := []
  y : List α := []
  z : List α := []
  deriving DecidableEq, Repr

/-- Dictionary update `d[axis] = l`. (regular_cartesian.py l.875-912) -/
def ByAxis.set {α} (d : ByAxis α) (a : Axis) (l : List α) : ByAxis α :=
  match a with | .x => { d with x := l } | .y => { d with y := l } | .z => { d with z := l }

/-- Dictionary lookup. (regular_cartesian.py l.855-917) -/
def ByAxis.get {α} (d : ByAxis α) : Axis → List α
  | .x => d.x | .y => d.y | .z => d.z

/-- `sum(d.values(), [])`: the `"list"` format of a dict (helpers.py l.173-176). -/
def ByAxis.all {α} (d : ByAxis α) : List α := d.x ++ d.y ++ d.z

/-- `[i for i in n_lst if i in cells_id]` with Python integers. (regular_cartesian.py l.873, 881, 886) -/
def keepIn (cells : List ℕ) (n_lst : List ℤ) : List ℕ :=
  n_lst.filterMap fun v => if 0 ≤ v ∧ v.toNat ∈ cells then some v.toNat else none

/-- `[c for c in n_lst if isin(c, cells_coords)]` with Python integers. (regular_cartesian.py l.904, 908, 912) -/
def keepInCoords (cells : List (ℕ × ℕ × ℕ)) (n_lst : List (ℤ × ℤ × ℤ)) : List (ℕ × ℕ × ℕ) :=
  n_lst.filterMap fun c =>
    if 0 ≤ c.1 ∧ 0 ≤ c.2.1 ∧ 0 ≤ c.2.2 ∧ (c.1.toNat, c.2.1.toNat, c.2.2.toNat) ∈ cells then
      some (c.1.toNat, c.2.1.toNat, c.2.2.toNat) else none

/-- `self.fdir[n]`; Python raises `IndexError` past the end. (regular_cartesian.py l.875, 883, 888) -/
def fdirAt (g : Dims) (n : ℕ) : Except Err Axis :=
  match g.getFdir[n]? with | some a => .ok a | none => .error .index

/-- `get_cell_neighbors(id=…, boundary=…, fmt="dict")` (l.804-893, id branch). -/
def neighborsId (g : Dims) (id : ℤ) (boundary : Bool) : Except Err (ByAxis ℕ) := do
  let boundaries ← g.getBoundariesId
  if (0 ≤ id ∧ id.toNat ∈ boundaries) ∧ boundary = true then throw .assertion
  let cells ← g.getCellsId boundary
  let d0 : ByAxis ℕ := {}
  let d1 ← if g.getD ≥ 1 then do
      let a ← g.fdirAt 0
      pure (d0.set a (keepIn cells [id - 1, id + 1]))
    else pure d0
  let d2 ← if g.getD ≥ 2 then do
      let nx : ℤ := g.nxb
      let ny : ℤ := g.nyb
      -- `if "x" in fdir … elif "y" in fdir`; without either, `n_lst` would keep its previous value
      let n_lst := if .x ∈ g.getFdir then [id - nx, id + nx]
        else if .y ∈ g.getFdir then [id - ny, id + ny] else [id - 1, id + 1]
      let a ← g.fdirAt 1
      pure (d1.set a (keepIn cells n_lst))
    else pure d1
  if g.getD ≥ 3 then do
    let nxny : ℤ := (g.nxb * g.nyb : ℕ)
    let a ← g.fdirAt 2
    pure (d2.set a (keepIn cells [id - nxny, id + nxny]))
  else pure d2

/-- `get_cell_neighbors(coords=…, boundary=…, fmt="dict")` (l.894-915, coords branch). -/
def neighborsCoords (g : Dims) (c : ℤ × ℤ × ℤ) (boundary : Bool) : Except Err (ByAxis (ℕ × ℕ × ℕ)) := do
  let boundaries ← g.getBoundariesCoords
  if (0 ≤ c.1 ∧ 0 ≤ c.2.1 ∧ 0 ≤ c.2.2 ∧ (c.1.toNat, c.2.1.toNat, c.2.2.toNat) ∈ boundaries) ∧ boundary = true then
    throw .assertion
  let cells ← g.getCellsCoords boundary
  let (i, j, k) := c
  let d0 : ByAxis (ℕ × ℕ × ℕ) := {}
  let d1 := if .x ∈ g.getFdir then d0.set .x (keepInCoords cells [(i - 1, j, k), (i + 1, j, k)]) else d0
  let d2 := if .y ∈ g.getFdir then d1.set .y (keepInCoords cells [(i, j - 1, k), (i, j + 1, k)]) else d1
  pure (if .z ∈ g.getFdir then d2.set .z (keepInCoords cells [(i, j, k - 1), (i, j, k + 1)]) else d2)

/-- `get_cell_neighbors(id, coords, boundary)`: `id` wins, then `coords`, otherwise `ValueError` (l.866, 894, 917).
The two branches return ids respectively coordinates. -/
def getCellNeighbors (g : Dims) (id : Option ℤ) (coords : Option (ℤ × ℤ × ℤ)) (boundary : Bool) :
    Except Err (ByAxis ℕ ⊕ ByAxis (ℕ × ℕ × ℕ)) :=
  match id, coords with
  | some i, _ => (g.neighborsId i boundary).map .inl
  | none, some c => (g.neighborsCoords c boundary).map .inr
  | none, none => .error .value

/-- `get_cell_boundaries(id=…)` (l.919-996, id branch). The intersection goes through a Python `set`, so the order of
the returned list is unspecified; the model keeps the neighbour order. -/
def cellBoundariesId (g : Dims) (id : ℤ) : Except Err (ByAxis ℕ) := do
  let boundaries ← g.getBoundariesId
  if 0 ≤ id ∧ id.toNat ∈ boundaries then throw .assertion
  let ns ← g.neighborsId id true
  pure ⟨ns.x.filter (· ∈ boundaries), ns.y.filter (· ∈ boundaries), ns.z.filter (· ∈ boundaries)⟩

/-- `get_cell_boundaries(coords=…)` (l.977-985, coords branch). -/
def cellBoundariesCoords (g : Dims) (c : ℤ × ℤ × ℤ) : Except Err (ByAxis (ℕ × ℕ × ℕ)) := do
  let boundaries ← g.getBoundariesCoords
  if 0 ≤ c.1 ∧ 0 ≤ c.2.1 ∧ 0 ≤ c.2.2 ∧ (c.1.toNat, c.2.1.toNat, c.2.2.toNat) ∈ boundaries then throw .assertion
  let ns ← g.neighborsCoords c true
  pure ⟨ns.x.filter (· ∈ boundaries), ns.y.filter (· ∈ boundaries), ns.z.filter (· ∈ boundaries)⟩

end Dims
end RF
