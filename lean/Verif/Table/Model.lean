import Verif.Py
import Mathlib.Algebra.Order.Field.Basic
import Mathlib.Algebra.Order.Floor.Ring
import Mathlib.Data.Rat.Floor
/-!
# Model of `get_df` and its helpers (`models/black_oil.py` l.652-779, 936-1060) without scaling

Column labels are structured instead of strings (`P 3` for `"P3"`); their text, units included, is in
`Verif.Table.Labels`. Saving to a file is not modelled. `none` is NaN. Dates are days since the start date.
-/
namespace RF
variable {K : Type}

/-- An entry of a table; an infinity only comes from scaling. (black_oil.py l.652-779) -/
inductive Val (K : Type) where
  | nat (n : ℕ)
  | num (k : K)
  | day (k : K)
  | inf (neg : Bool)
  deriving DecidableEq

/-- Column labels. (black_oil.py l.658-776) -/
inductive Lbl where
  | id | step | axis (a : Axis) | time | date | Q | P
  | cellQ (id : ℕ) | cellP (id : ℕ) | wellQ (id : ℕ) | wellP (id : ℕ)
  deriving DecidableEq, Repr

/-- A data frame: columns in order. (pandas DataFrame, black_oil.py l.652-656) -/
abbrev Frame (K : Type) := List (Lbl × List (Option (Val K)))

/-- What `get_df` reads. `cells` are the ids for the given `boundary` argument, `centers` the centre of each of these cells along
the flow axes; `press` and `rates` are the tables of the current solution over all cells; `wells` lists the cells with wells,
`wpress` the well pressures. (black_oil.py l.936-1071) -/
structure TInput (K : Type) where
  cells : List ℕ
  fdir : List Axis
  centers : List (List K)
  nsteps : ℕ
  tstep : ℕ
  dt : K
  press : List (List (Option K))
  rates : List (List (Option K))
  wells : List ℕ
  wpress : List (ℕ × List (Option K))

/-- `np.tileL(l, k)`. (external code, called at black_oil.py l.771, 1024) -/
def tileL {α : Type} (l : List α) (k : ℕ) : List α := (List.range k).flatMap fun _ => l
/-- `np.repeat(l, k)`. (external code, called at black_oil.py l.671, 1025) -/
def repeatEach {α : Type} (l : List α) (k : ℕ) : List α := l.flatMap fun a => List.replicate k a

/-- Number of rows of a frame. (black_oil.py l.652-656) -/
def Frame.rows (f : Frame K) : ℕ := (f.map (·.2.length)).foldl max 0

/-- `pd.concat([df, data], axis=1)`: columns are aligned by position and padded with NaN (l.652-656). -/
def Frame.concat (a b : Frame K) : Frame K :=
  let n := max a.rows b.rows
  (a ++ b).map fun c => (c.1, c.2 ++ List.replicate (n - c.2.length) none)

/-- `array[:, ids]`: one list per id; an id outside the array is an `IndexError`, modelled as NaN and excluded in theorems. (black_oil.py l.691-733) -/
def colOf (t : List (List (Option K))) (id : ℕ) : List (Option K) := t.map fun r => (r[id]?).getD none

/-- `__get_time_vector` (l.778-779): `np.arange(0, (tstep+1)*dt, dt)`. -/
def times [Field K] [LinearOrder K] [FloorRing K] (tstep : ℕ) (dt : K) : List K :=
  (List.range (⌈((tstep + 1 : ℕ) : K) * dt / dt⌉.toNat)).map fun i : ℕ => (i : K) * dt

section
variable [Field K] [LinearOrder K] [FloorRing K]

/-- `__add_time` (l.658-673). -/
def TInput.timeCol (t : TInput K) (melt : Bool) : Frame K :=
  let v := (times t.tstep t.dt).map fun x => some (Val.num x)
  [(.time, if melt then repeatEach v t.cells.length else v)]

/-- `__add_date` (l.675-688): `tstep + 1` dates, `dt` days apart. -/
def TInput.dateCol (t : TInput K) (melt : Bool) : Frame K :=
  let v := (List.range (t.tstep + 1)).map fun i : ℕ => some (Val.day ((i : K) * t.dt))
  [(.date, if melt then repeatEach v t.cells.length else v)]

/-- `array.flatten()` of `array[:, cells_id]`. (black_oil.py l.691-733) -/
def TInput.flatTable (t : TInput K) (a : List (List (Option K))) : List (Option (Val K)) :=
  a.flatMap fun r => t.cells.map fun id => ((r[id]?).getD none).map .num

/-- `__add_cells_rate` (l.690-710). -/
def TInput.cellsRate (t : TInput K) (melt : Bool) : Frame K :=
  if melt then [(.Q, t.flatTable t.rates)]
  else t.cells.map fun id => (.cellQ id, (colOf t.rates id).map (·.map .num))

/-- `__add_cells_pressures` (l.712-732). -/
def TInput.cellsPress (t : TInput K) (melt : Bool) : Frame K :=
  if melt then [(.P, t.flatTable t.press)]
  else t.cells.map fun id => (.cellP id, (colOf t.press id).map (·.map .num))

/-- `__add_wells_rate` (l.734-749). -/
def TInput.wellsRate (t : TInput K) : Frame K := t.wells.map fun id => (.wellQ id, (colOf t.rates id).map (·.map .num))

/-- `__add_wells_pressures` (l.751-765): a data frame from a dictionary of lists needs lists of equal length. -/
def TInput.wellsPress (t : TInput K) : Except Err (Frame K) :=
  if t.wpress.all (fun w => decide (w.2.length = ((t.wpress.head?.map (·.2.length)).getD 0))) then
    .ok (t.wpress.map fun w => (.wellP w.1, w.2.map (·.map .num)))
  else .error .value

/-- `__add_xyz` (l.767-776): the flattened centres are tiled and cut into rows of one entry per flow axis. -/
def TInput.xyz (t : TInput K) : Frame K :=
  let flat := tileL t.centers.flatten t.nsteps
  let d := t.fdir.length
  (List.range d).filterMap fun j => (t.fdir[j]?).map fun a =>
    (.axis a, (List.range (flat.length / d)).map fun r => (flat[r * d + j]?).map .num)

/-- Which parts a column name asks for (`col_dict`, l.1001-1008), in the order in which they are added. -/
inductive Part where | time | date | cellsRate | cellsPress | wellsRate | wellsPress
  deriving DecidableEq, Repr

/-- The names of a part in the `columns` argument. (black_oil.py l.1006-1013) -/
def partNames : Part → List String
  | .time => ["t", "time"]
  | .date => ["d", "date"]
  | .cellsRate => ["q", "rates", "cells", "cells_rate"]
  | .cellsPress => ["p", "pressures", "cells", "cells_pressure"]
  | .wellsRate => ["q", "rates", "wells", "wells_rate"]
  | .wellsPress => ["p", "pressures", "wells", "wells_pressure"]

/-- The parts of the table in the order of the code. (black_oil.py l.1006-1042) -/
def allParts : List Part := [.time, .date, .cellsRate, .cellsPress, .wellsRate, .wellsPress]

/-- The columns a part contributes (l.1026-1037). -/
def TInput.part (t : TInput K) (melt : Bool) : Part → Except Err (Frame K)
  | .time => .ok (t.timeCol melt)
  | .date => .ok (t.dateCol melt)
  | .cellsRate => .ok (t.cellsRate melt)
  | .cellsPress => .ok (t.cellsPress melt)
  | .wellsRate => .ok (if melt then [] else t.wellsRate)
  | .wellsPress => if melt then .ok [] else t.wellsPress

/-- One turn of the loop over requested columns (l.1022-1037). -/
def TInput.addColumn (lower : String → String) (t : TInput K) (melt : Bool) (df : Frame K) (c : String) :
    Except Err (Frame K) :=
  if allParts.all (fun p => decide (lower c ∉ partNames p)) then .error .value
  else (allParts.filter fun p => decide (lower c ∈ partNames p)).foldlM (fun df p => do
    let f ← t.part melt p
    return df.concat f) df

/-- Rows without NaN (`dropna(axis=0, how="any")`, l.1040-1042). -/
def Frame.dropRows (f : Frame K) : Frame K :=
  let keep := (List.range f.rows).filter fun i => f.all fun c => ((c.2[i]?).getD none).isSome
  f.map fun c => (c.1, keep.filterMap fun i => c.2[i]?)

/-- Columns with some value (`dropna(axis=1, how="all")`, l.1044-1045). -/
def Frame.dropNanCols (f : Frame K) : Frame K := f.filter fun c => c.2.any (·.isSome)

/-- Zero as a table entry: `df != 0`. A date is text. (black_oil.py l.1051-1052) -/
def Val.isZero (v : Val K) : Bool :=
  match v with
  | .nat n => n = 0
  | .num k => decide (k = 0)
  | .day _ => false
  | .inf _ => false

/-- `entry != 0`, true for NaN. (black_oil.py l.1051-1052) -/
def neZero (v : Option (Val K)) : Bool :=
  match v with
  | none => true
  | some v => !v.isZero

/-- Columns with an entry different from zero, NaN being different (l.1046-1047). -/
def Frame.dropZeroCols (f : Frame K) : Frame K := f.filter fun c => c.2.any neZero

/-- `get_df(columns, melt, drop_nan, drop_zero)` (l.936-1060) with `scale=False`. -/
def TInput.getDf (lower : String → String) (t : TInput K) (columns : List String) (melt dropNan dropZero : Bool) :
    Except Err (Frame K) := do
  let df : Frame K := if melt then
      Frame.concat [(.id, (tileL t.cells t.nsteps).map fun n => some (.nat n)),
        (.step, (repeatEach (List.range t.nsteps) t.cells.length).map fun n => some (.nat n))] t.xyz
    else []
  let df ← columns.foldlM (t.addColumn lower melt) df
  if melt then
    return if dropNan then df.dropRows else df
  else
    let df := if dropNan then df.dropNanCols else df
    return if dropZero then df.dropZeroCols else df
end
end RF
