import Verif.Geom.Model
import Verif.Table.Model
import Verif.Scaler.Model
/-!
# What a picture of a model shows (`utils/pyvista.py`)

`show_model`, `save_gif` and `get_grid_plotter` hand a mesh, one number per mesh cell, colour limits, labels and lines of text to pyvista. This is a model of what is handed over;
drawing, cameras, colours and windows are not modelled. `none` is NaN.
-/
namespace RF
open Dims

/-- A mesh: the numbers of cells along the axes and the corner points. `pv.ExplicitStructuredGrid(shape + 1, corners)`. (regular_cartesian.py l.2161-2163) -/
structure Mesh (K : Type) where
  shape : ℕ × ℕ × ℕ
  pts : List (K × K × K)

/-- The corner of mesh cell `m` on the sides `a`, `b`, `c` (0 near, 1 far): pyvista numbers mesh cells with the first axis running fastest and takes the corners of cell `(i, j, k)` at
`(2i+a, 2j+b, 2k+c)`. (external code, called at regular_cartesian.py l.2163) -/
def Mesh.corner {K : Type} (M : Mesh K) (m a b c : ℕ) : Option (K × K × K) :=
  let i := m % M.shape.1
  let j := m / M.shape.1 % M.shape.2.1
  let k := m / (M.shape.1 * M.shape.2.1)
  M.pts[(2 * i + a) + 2 * M.shape.1 * ((2 * j + b) + 2 * M.shape.2.1 * (2 * k + c))]?

section
variable {K : Type} [Field K] [LinearOrder K] [FloorRing K]

/-- `grid.get_pyvista_grid(boundary)` (regular_cartesian.py l.2144-2169). -/
def pyvistaGrid (g : Dims) (q : Geom K) (boundary : Bool) : Except Err (Mesh K) := do
  let pts ← q.corners g boundary
  return ⟨g.getShape boundary, pts⟩

/-- The choice of the table in `get_model_values` (pyvista.py l.800-806): `prop.lower()` is looked up among the names. -/
def modelTable (lower : String → String) (press rates : List (List (Option K))) (prop : String) : Except Err (List (List (Option K))) :=
  if lower prop ∈ ["p", "pressure", "pressures"] then .ok press
  else if lower prop ∈ ["q", "rate", "rates"] then .ok rates
  else .error .value

/-- `get_model_values(model, prop, boundary)` (pyvista.py l.799-811): rows of the table of the chosen property; without boundary cells `values[:, cells_id]`. -/
def modelValues (lower : String → String) (g : Dims) (press rates : List (List (Option K))) (prop : String) (boundary : Bool) : Except Err (List (List (Option K))) := do
  let values ← modelTable lower press rates prop
  if boundary then return values
  else
    let ids ← g.getCellsId false
    values.mapM fun r => Geom.pick r ids

/-- `np.nanmin` and `np.nanmax` of a non-empty array: NaN if there is no number. (pyvista.py l.167-168) -/
def nanRange (v : List (Option K)) : Option (K × K) :=
  match v.filterMap id with
  | [] => none
  | a :: l => some (minL a l, maxL a l)

/-- `np.nanmean`. (pyvista.py l.380) -/
def nanMean (v : List (Option K)) : Option K :=
  let l := v.filterMap id
  if l = [] then none else some (l.sum / l.length)

/-- `min_v < 1` (pyvista.py l.169): false for a NaN. -/
def belowOne (r : Option (K × K)) : Bool :=
  match r with
  | some (a, _) => decide (a < 1)
  | none => false

/-- `get_limits_fmt` (pyvista.py l.154-173): limits of the colours and whether two decimals are shown. The empty array is a `ValueError`; the comparison of a NaN with 1 is false. -/
def limitsFmt (v : List (List (Option K))) : Except Err (Option (K × K) × Bool) :=
  if v.flatten = [] then .error .value
  else
    let r := nanRange v.flatten
    .ok (r, belowOne r)

/-- `get_annotations` (pyvista.py l.364-382): a dictionary whose keys are numbers, so that a later entry replaces an earlier one with the same key. -/
def annotations (v : List (List (Option K))) : List (K × String) :=
  match nanRange v.flatten, nanMean v.flatten with
  | some (a, b), some c => [(b, "max"), (c, "avg")].foldl (fun d e => if e.1 ∈ d.map (·.1) then d.map fun x => if x.1 = e.1 then e else x else d ++ [e]) [(a, "min")]
  | _, _ => []

/-- One frame: what the mesh cells show, and the lines of text: days since the start date, number of the step, average, minimum and maximum. (pyvista.py l.1063-1072, 1220-1231) -/
structure PFrame (K : Type) where
  data : List (Option K)
  day : K
  step : ℕ
  avg : Option K
  range : Option (K × K)

/-- A picture or an animation. (pyvista.py l.814-897) -/
structure Picture (K : Type) where
  mesh : Mesh K
  limits : Option (K × K)
  decimals : Bool
  notes : List (K × String)
  frames : List (PFrame K)

/-- Frame `t` (pyvista.py l.1063-1072, 1220-1231). `dates` are days, `model.get_df(columns=["Date"])["Date"]`. A date that does not exist is a `KeyError`, a row that does not exist an
`IndexError`. -/
def mkFrame (values : List (List (Option K))) (dates : List K) (t : ℕ) : Except Err (PFrame K) := do
  let d ← match dates[t]? with
    | some d => Except.ok d
    | none => .error .key
  let r ← match values[t]? with
    | some r => Except.ok r
    | none => .error .index
  return ⟨r, d, t, nanMean r, nanRange r⟩

/-- The dates of the model (black_oil.py l.675-688): `tstep + 1` of them. -/
def plotDates (t : TInput K) : List K := (List.range (t.tstep + 1)).map fun i : ℕ => (i : K) * t.dt

/-- `get_model_plotter` and the frames of `save_gif` (pyvista.py l.814-897, 1001-1073): one for each of `range(nsteps)`. -/
def saveGif (lower : String → String) (g : Dims) (q : Geom K) (t : TInput K) (prop : String) (boundary : Bool) : Except Err (Picture K) := do
  let values ← modelValues lower g t.press t.rates prop boundary
  let (lim, dec) ← limitsFmt values
  let M ← pyvistaGrid g q boundary
  let fs ← (List.range t.nsteps).mapM (mkFrame values (plotDates t))
  return ⟨M, lim, dec, annotations values, fs⟩

/-- `show_model` (pyvista.py l.1080-1255): the frame of the last step; the slider calls `update_pl(slide)` for any step. Without a slide the list holds the last frame only. -/
def showModel (lower : String → String) (g : Dims) (q : Geom K) (t : TInput K) (prop : String) (boundary : Bool) (slide : List ℕ) : Except Err (Picture K) := do
  let values ← modelValues lower g t.press t.rates prop boundary
  let (lim, dec) ← limitsFmt values
  let M ← pyvistaGrid g q boundary
  let fs ← ((t.nsteps - 1) :: slide).mapM (mkFrame values (plotDates t))
  return ⟨M, lim, dec, annotations values, fs⟩

/-! ## Labels -/

/-- The text of a label: an id or a position, coordinates, reversed coordinates, a number, or a point. (pyvista.py l.528-558) -/
inductive LabelText (K : Type) where
  | nat (n : ℕ)
  | coords (c : ℕ × ℕ × ℕ)
  | icoords (c : List ℕ)
  | num (x : K)
  | point (p : K × K × K)

/-- `get_cells_icoords(boundary, False)` (regular_cartesian.py l.753-799). -/
def cellsIcoords (g : Dims) (boundary : Bool) : Except Err (List (List ℕ)) := do
  let cs ← g.getCellsCoords boundary
  cs.mapM fun c => g.getCellIcoords ((c.1 : ℤ), (c.2.1 : ℤ), (c.2.2 : ℤ))

/-- The labels of `add_grid_labels` (pyvista.py l.530-558); "sphere" draws points instead of texts. -/
def labelTexts (g : Dims) (q : Geom K) (label : String) (boundary : Bool) : Except Err (List (LabelText K)) :=
  if label = "coords" then do return (← g.getCellsCoords boundary).map .coords
  else if label = "icoords" then do return (← cellsIcoords g boundary).map .icoords
  else if label = "id" then do return (← g.getCellsId boundary).map .nat
  else if label = "i" then .ok ((g.getCellsI boundary).map .nat)
  else if label = "dx" then do return (← Geom.cells g (q.d .x) boundary).map .num
  else if label = "dy" then do return (← Geom.cells g (q.d .y) boundary).map .num
  else if label = "dz" then do return (← Geom.cells g (q.d .z) boundary).map .num
  else if label ∈ ["area_x", "Ax"] then do return (← Geom.cells g (q.A .x) boundary).map .num
  else if label ∈ ["area_y", "Ay"] then do return (← Geom.cells g (q.A .y) boundary).map .num
  else if label ∈ ["area_z", "Az"] then do return (← Geom.cells g (q.A .z) boundary).map .num
  else if label ∈ ["volume", "V"] then do return (← Geom.cells g q.V boundary).map .num
  else if label ∈ ["center", "centers", "sphere"] then do return (← Geom.cells g (q.centers g) boundary).map .point
  else .error .value

/-- `add_grid_labels` (pyvista.py l.504-578): points with their labels; nothing is drawn on an opaque grid. -/
def gridLabels (g : Dims) (q : Geom K) (label : Option String) (opacity : K) (boundary : Bool) : Except Err (List ((K × K × K) × LabelText K)) := do
  let pts ← Geom.cells g (q.centers g) boundary
  match label with
  | none => return []
  | some l =>
    if opacity < 1 then
      let ls ← labelTexts g q l boundary
      return pts.zip ls
    else return []

/-- A drawn well: centre, height and radius of a vertical cylinder. (pyvista.py l.257-266) -/
structure Cyl (K : Type) where
  center : K × K × K
  height : K
  radius : K

/-- `add_wells` (pyvista.py l.236-266): `height // 2` is the floor of half the height. -/
def drawWells (g : Dims) (q : Geom K) (wells : List (ℕ × K)) : Except Err (List (Cyl K)) := do
  let cs ← Geom.cells g (q.centers g) true
  wells.mapM fun w => do
    let dz ← Geom.pyGet q.dz (w.1 : ℤ)
    let c ← Geom.pyGet cs (w.1 : ℤ)
    let h := dz * 10
    return ⟨(c.1, c.2.1, c.2.2 + (⌊h / 2⌋ : K)), h, w.2⟩
end
end RF
