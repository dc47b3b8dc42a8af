import Verif.Grid.Model
import Mathlib.Algebra.Order.Floor.Ring
import Mathlib.Algebra.BigOperators.Group.List.Basic
/-!
# Model of `reservoirflow/grids/regular_cartesian.py`: cell sizes, areas, volumes, centres, corners

Numbers live in an arbitrary ordered field `K` (exact arithmetic, no rounding, no integer overflow).
-/
namespace RF

/-- A size argument `dx`, `dy`, `dz`: a number, or a list/tuple/one-dimensional array. (l.1282-1287) -/
inductive DArg (K : Type) where
  | scalar (v : K)
  | list (l : List K)

/-- A numpy array with three axes. (regular_cartesian.py l.1409-1412) -/
structure Arr3 (α : Type) where
  s0 : ℕ
  s1 : ℕ
  s2 : ℕ
  at_ : ℕ → ℕ → ℕ → α

namespace Arr3
variable {α : Type}

/-- `reshape(-1)`: entries in C order. (external code, used at regular_cartesian.py l.1410-1412) -/
def flat (a : Arr3 α) : List α :=
  (List.range a.s0).flatMap fun i => (List.range a.s1).flatMap fun j => (List.range a.s2).map fun k => a.at_ i j k

/-- `np.transpose(a, axes=(0, 2, 1))`. (regular_cartesian.py l.1410) -/
def transpose021 (a : Arr3 α) : Arr3 α := ⟨a.s0, a.s2, a.s1, fun p q r => a.at_ p r q⟩
/-- `np.transpose(a, axes=(2, 0, 1))`. (regular_cartesian.py l.1411) -/
def transpose201 (a : Arr3 α) : Arr3 α := ⟨a.s2, a.s0, a.s1, fun p q r => a.at_ q r p⟩
/-- `np.transpose(a, axes=(2, 1, 0))`. (regular_cartesian.py l.1412) -/
def transpose210 (a : Arr3 α) : Arr3 α := ⟨a.s2, a.s1, a.s0, fun p q r => a.at_ r q p⟩

end Arr3

/-- `np.meshgrid(x, y, z)` with the default `indexing="xy"`: the first two axes are swapped (external code). (called at regular_cartesian.py l.1409, 2083) -/
def meshgrid {K : Type} [Zero K] (x y z : List K) : Arr3 K × Arr3 K × Arr3 K :=
  (⟨y.length, x.length, z.length, fun _ i _ => x.getD i 0⟩,
   ⟨y.length, x.length, z.length, fun j _ _ => y.getD j 0⟩,
   ⟨y.length, x.length, z.length, fun _ _ k => z.getD k 0⟩)

/-- What the constructor stores about cell sizes. (`self.dx_`, …, `self.dx`, …; l.1328-1350, 1409-1419) -/
structure Geom (K : Type) where
  /-- axis vectors `dx_`, `dy_`, `dz_` -/
  dx_ : List K
  dy_ : List K
  dz_ : List K
  /-- one entry per cell `dx`, `dy`, `dz` -/
  dx : List K
  dy : List K
  dz : List K

section
variable {K : Type} [Field K]

/-- One axis of `__calc_cells_d_` (l.1322-1350): the axis vector and what is handed to `meshgrid`.
`np.ones(n) * d` broadcasts. -/
def calcAxis (flow : Bool) (n nmax : ℕ) : DArg K → Except Err (List K × List K)
  | .scalar v => if flow then .ok (List.replicate n v, List.replicate n v) else .ok (List.replicate nmax v, [v])
  | .list l =>
    if flow then (if l.length = n then .ok (l, l) else .error .assertion)
    else if l.length = nmax then .ok (l, l)
    else if l.length = 1 then .ok (List.replicate nmax (l.getD 0 0), l)
    else if nmax = 1 then .ok (l, l)
    else .error .value

/-- `reshape(n)` of a three-axis array to a flat array of `n` entries. (regular_cartesian.py l.1410-1412) -/
def reshapeFlat (a : Arr3 K) (n : ℕ) : Except Err (List K) :=
  if a.flat.length = n then .ok a.flat else .error .value

/-- `__calc_cells_d(dx, dy, dz, False)` (l.1281-1421). -/
def Geom.calc (g : Dims) (dx dy dz : DArg K) : Except Err (Geom K) := do
  let (nx, ny, nz) := g.getShape true
  let nmax := g.getNMax true
  let (dx_, mx) ← calcAxis (decide (.x ∈ g.getFdir)) nx nmax dx
  let (dy_, my) ← calcAxis (decide (.y ∈ g.getFdir)) ny nmax dy
  let (dz_, mz) ← calcAxis (decide (.z ∈ g.getFdir)) nz nmax dz
  let (X, Y, Z) := meshgrid mx my mz
  let dx ← reshapeFlat X.transpose021 (g.getN true)
  let dy ← reshapeFlat Y.transpose201 (g.getN true)
  let dz ← reshapeFlat Z.transpose210 (g.getN true)
  pure ⟨dx_, dy_, dz_, dx, dy, dz⟩

namespace Geom

/-- `get_cells_d(dir, True, False)` for a single direction (l.1451-1456). -/
def d (q : Geom K) : Axis → List K
  | .x => q.dx | .y => q.dy | .z => q.dz

/-- `__calc_cells_A` (l.1677-1680); elementwise products. -/
def A (q : Geom K) : Axis → List K
  | .x => List.zipWith (· * ·) q.dy q.dz
  | .y => List.zipWith (· * ·) q.dx q.dz
  | .z => List.zipWith (· * ·) q.dx q.dy

/-- `__calc_cells_V` (l.1931-1932). -/
def V (q : Geom K) : List K := List.zipWith (· * ·) (List.zipWith (· * ·) q.dx q.dy) q.dz

/-- numpy fancy indexing `a[ids]` with natural numbers. (regular_cartesian.py l.1461-1472) -/
def pick {α : Type} (a : List α) (ids : List ℕ) : Except Err (List α) :=
  ids.mapM fun i => match a[i]? with | some v => .ok v | none => .error .index

/-- `cells if boundary else cells[self.cells_id]`, shared by `get_cells_d`, `get_cells_A`, `get_cells_V`
(l.1462-1463, 1720-1721, 1991-1992). -/
def cells {α : Type} (g : Dims) (all : List α) (boundary : Bool) : Except Err (List α) :=
  if boundary then .ok all
  else match g.getCellsId false with
    | .error e => .error e
    | .ok ids => pick all ids

/-- Python indexing `a[id]`: negative indices count from the end, outside is `IndexError`. (regular_cartesian.py l.1570-1581) -/
def pyGet {α : Type} (a : List α) (id : ℤ) : Except Err α :=
  let i := if id < 0 then id + a.length else id
  if 0 ≤ i then (match a[i.toNat]? with | some v => .ok v | none => .error .index) else .error .index

end Geom
end

namespace Dims

/-- `get_cell_icoords(coords)` for one cell (l.713-749): the index tuple into an array of the flow shape. -/
def getCellIcoords (g : Dims) (c : ℤ × ℤ × ℤ) : Except Err (List ℕ) := do
  let cells ← g.getCellsCoords true
  if ¬ (0 ≤ c.1 ∧ 0 ≤ c.2.1 ∧ 0 ≤ c.2.2 ∧ (c.1.toNat, c.2.1.toNat, c.2.2.toNat) ∈ cells) then throw .assertion
  let rev := [c.2.2.toNat, c.2.1.toNat, c.1.toNat]
  if !g.unify && decide (g.getD ≤ 2) then
    let ic := rev.filter (0 < ·)
    if ic.length = g.getD then pure ic else throw .assertion
  else pure rev

/-- Indexing an array of the flow shape (given flat, in C order) with an index tuple. The empty tuple, which arises only
for the single-cell grid without `unify`, selects the whole one-entry array; it is modelled as that entry. (regular_cartesian.py l.1570-1581) -/
def atIcoords {α : Type} (g : Dims) (flat : List α) (ic : List ℕ) : Except Err α :=
  let s := g.getFshape true
  if (ic.length = s.length ∧ List.Forall₂ (· < ·) ic s) ∨ (ic = [] ∧ s = [1]) then
    (match flat[flatIdx s ic 0]? with | some v => .ok v | none => .error .index)
  else .error .index

/-- The `id`/`coords` dispatch of `get_cell_d`, `get_cell_A`, `get_cell_V`, `get_cell_center`
(l.1573-1581, 1827-1835, 2030-2038, 2122-2130). -/
def lookup {α : Type} (g : Dims) (all : List α) (id : Option ℤ) (coords : Option (ℤ × ℤ × ℤ)) : Except Err α :=
  match id, coords with
  | some i, _ => Geom.pyGet all i
  | none, some c => do let ic ← g.getCellIcoords c; g.atIcoords all ic
  | none, none => .error .value

end Dims

namespace Geom
variable {K : Type} [Field K]

/-- `get_cell_d(dir, id, coords)` (l.1537-1581). -/
def cellD (q : Geom K) (g : Dims) (a : Axis) := g.lookup (q.d a)
/-- `get_cell_A(dir, id, coords)` (l.1795-1835). -/
def cellA (q : Geom K) (g : Dims) (a : Axis) := g.lookup (q.A a)
/-- `get_cell_V(id, coords)` (l.2004-2038). -/
def cellV (q : Geom K) (g : Dims) := g.lookup q.V

/-- `get_Vt(boundary)` without pyvista (l.1935-1961); numpy's `sum`. -/
def getVt (q : Geom K) (g : Dims) (boundary : Bool) : Except Err K :=
  if boundary then .ok q.V.sum
  else match g.removeBoundaries (NdArr.ofList q.V) with
    | .error e => .error e
    | .ok r => .ok r.data.sum

/-- numpy `cumsum`. (external code, called at regular_cartesian.py l.2077, 2191-2201) -/
def cumsum : List K → K → List K
  | [], _ => []
  | a :: t, acc => (acc + a) :: cumsum t (acc + a)

/-- `calc_d_center(d_, n_b)` inside `get_cells_center` (l.2076-2079). -/
def calcDCenter (d : List K) (nb : ℕ) : List K :=
  let half := d.map (· / 2)
  (half.take 1 ++ List.zipWith (· + ·) (half.drop 1) (cumsum d.dropLast 0)).take nb

/-- `get_cells_center(True, False)` without pyvista (l.2081-2087): meshgrid of the axis centres, transposed with axes
`(1, 3, 2, 0)` into `[j, k, i, c]` and concatenated over `j` along axis 1 into rows `[k, j*X + i]`. -/
def centers (q : Geom K) (g : Dims) : List (K × K × K) :=
  let cx := calcDCenter q.dx_ g.nxb
  let cy := calcDCenter q.dy_ g.nyb
  let cz := calcDCenter q.dz_ g.nzb
  let (X, Y, Z) := meshgrid cx cy cz
  let tr : ℕ → ℕ → ℕ → K × K × K := fun j k i => (X.at_ j i k, Y.at_ j i k, Z.at_ j i k)
  (List.range X.s2).flatMap fun k => (List.range X.s0).flatMap fun j => (List.range X.s1).map fun i => tr j k i

/-- `get_cell_center(id, coords)` (l.2095-2130). -/
def cellCenter (q : Geom K) (g : Dims) := g.lookup (q.centers g)

section corners
variable [LinearOrder K] [FloorRing K]

/-- `np.arange(0, stop, step)`; step zero is `ZeroDivisionError`. (external code, called at regular_cartesian.py l.2193-2203) -/
def arange (stop step : K) : Except Err (List K) :=
  if step = 0 then .error .zeroDiv
  else .ok ((List.range ⌈stop / step⌉.toNat).map fun (i : ℕ) => (i : K) * step)

/-- `np.repeat(l, m)`. (external code, called at regular_cartesian.py l.2222-2236) -/
def repeat_ {α : Type} (l : List α) (m : ℕ) : List α := l.flatMap (List.replicate m)

/-- `np.tile(l, m)` for a flat array. (external code, called at regular_cartesian.py l.2224, 2229) -/
def tile {α : Type} (l : List α) (m : ℕ) : List α := (List.replicate m l).flatten

/-- Edge positions of one axis in `get_corners` (l.2192-2205, 2217-2222). -/
def edges (flow : Bool) (n : ℕ) (d_ : List K) (boundary : Bool) : Except Err (List K) := do
  let e ← if flow then pure (0 :: cumsum d_ 0)
    else match d_ with
      | [] => .error .index
      | d0 :: _ => arange ((n + 1 : K) * d0) d0
  pure (if boundary || !flow then e else (e.drop 1).dropLast)

/-- `np.repeat(corn, 2)[1:-1]` (l.2225-2226). -/
def doubled {α : Type} (e : List α) : List α := ((repeat_ e 2).drop 1).dropLast

/-- `get_corners(boundary)` (l.2171-2254): one point per row. The `y` column is `np.tile(ycorn, (2*X, 2*Z))` transposed
and flattened. -/
def corners (q : Geom K) (g : Dims) (boundary : Bool) : Except Err (List (K × K × K)) := do
  let ex ← edges (decide (.x ∈ g.getFdir)) g.nx q.dx_ boundary
  let ey ← edges (decide (.y ∈ g.getFdir)) g.ny q.dy_ boundary
  let ez ← edges (decide (.z ∈ g.getFdir)) g.nz q.dz_ boundary
  let ix := if boundary && decide (.x ∈ g.getFdir) then 2 else 0
  let iy := if boundary && decide (.y ∈ g.getFdir) then 2 else 0
  let iz := if boundary && decide (.z ∈ g.getFdir) then 2 else 0
  let xcorn := tile (doubled ex) (4 * (g.ny + iy) * (g.nz + iz))
  -- row `r` of the tiled array is `tile (doubled ey) (2*Z)`; its transpose flattened repeats each entry `2*X` times
  let ycorn := repeat_ (tile (doubled ey) (2 * (g.nz + iz))) (2 * (g.nx + ix))
  let zcorn := repeat_ (doubled ez) (4 * (g.nx + ix) * (g.ny + iy))
  -- `np.stack` needs equal lengths
  if xcorn.length = ycorn.length ∧ ycorn.length = zcorn.length then
    pure (List.zipWith (fun x yz => (x, yz)) xcorn (List.zipWith Prod.mk ycorn zcorn))
  else throw .value

end corners
end Geom
end RF
