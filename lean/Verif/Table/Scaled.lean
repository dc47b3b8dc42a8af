import Verif.Table.Model
import Verif.Scaler.Model
/-!
# Model of `get_df(scale=True)` (`models/black_oil.py` l.658-863, 1012-1060)

Labels carry no units, as in `Verif.Table.Model`. `none` is NaN, `Val.inf` an infinity. The scaler objects of the model are fitted on every call; that they stay fitted afterwards
is not modelled.
-/
namespace RF
variable {K : Type} [Field K] [LinearOrder K] [FloorRing K]

/-- A fitted scaler. The input range is `none` if numpy's minimum is NaN. (minmax.py l.56-66) -/
inductive Fitted (K : Type) where
  | dummy
  | minmax (lo hi : K) (range : Option (K × K))

/-- `v.min()`, `v.max()` of an array with NaNs: an empty array is a `ValueError`, and one NaN makes both results NaN (minmax.py l.56-66). -/
def rangeOf (v : List (Option K)) : Except Err (Option (K × K)) :=
  match v with
  | [] => .error .value
  | _ :: _ => .ok (if v.all (·.isSome) then
      match v.filterMap id with
      | [] => none
      | a :: l => some (minL a l, maxL a l)
    else none)

/-- `fit` of both classes on an array that is treated as a whole (minmax.py l.56-66, dummy.py l.26-27). -/
def Made.fit (s : Made K) (v : List (Option K)) : Except Err (Fitted K) :=
  match s with
  | .dummy => .ok .dummy
  | .minmax lo hi => do return .minmax lo hi (← rangeOf v)

/-- `transform` of one number (minmax.py l.68-73, dummy.py l.29-30): numpy divides by zero without raising. -/
def Fitted.apply (f : Fitted K) (x : K) : Option (Val K) :=
  match f with
  | .dummy => some (.num x)
  | .minmax _ _ none => none
  | .minmax lo hi (some (a, b)) =>
    if b - a = 0 then
      if (hi - lo) * (x - a) = 0 then none else some (.inf (decide ((hi - lo) * (x - a) < 0)))
    else some (.num ((hi - lo) * (x - a) / (b - a) + lo))

/-- `transform` of an array entry. (minmax.py l.68-73) -/
def Fitted.entry (f : Fitted K) (x : Option K) : Option (Val K) := x.bind f.apply

/-- What `get_df(scale=True)` reads in addition: all cells with their centres, and the scalers (`set_scalers`). (black_oil.py l.781-863) -/
structure SInput (K : Type) extends TInput K where
  allCells : List ℕ
  allCenters : List (List K)
  scaler : Quantity → Made K

/-- The model seen with `boundary=True`. (black_oil.py l.785-814) -/
def SInput.whole (t : SInput K) : TInput K := { t.toTInput with cells := t.allCells, centers := t.allCenters }

/-- The entries of `df.values` (all columns of these frames hold numbers). (black_oil.py l.785-814) -/
def Frame.values (f : Frame K) : List (Option K) := f.flatMap fun c => c.2.map fun v =>
  match v with
  | some (.num k) => some k
  | _ => none

/-- `__update_time_scaler` (l.781-783). -/
def SInput.fitTime (t : SInput K) : Except Err (Fitted K) := (t.scaler .time).fit ((times t.tstep t.dt).map some)

/-- `__update_space_scaler(True)` (l.785-787): one range per flow axis. -/
def SInput.fitSpace (t : SInput K) : Except Err (List (Fitted K)) :=
  (List.range t.fdir.length).mapM fun j => (t.scaler .space).fit (t.allCenters.map fun r => r[j]?)

/-- `__update_pressures_scaler(True)` (l.789-792, 815-824). -/
def SInput.fitPress (lower : String → String) (t : SInput K) : Except Err (Fitted K) := do
  let f ← t.whole.getDf lower ["cells_pressure"] false true true
  (t.scaler .pressure).fit f.values

/-- `__update_rates_scaler(True)` (l.794-824). -/
def SInput.fitRate (lower : String → String) (t : SInput K) : Except Err (Fitted K) := do
  let f ← t.whole.getDf lower ["rates"] false true true
  (t.scaler .rate).fit f.values

/-- The fitted scalers. (black_oil.py l.827-831) -/
structure Fits (K : Type) where
  time : Fitted K
  space : List (Fitted K)
  press : Fitted K
  rate : Fitted K

/-- `update_scalers(True)` (l.826-830). -/
def SInput.fits (lower : String → String) (t : SInput K) : Except Err (Fits K) := do
  let a ← t.fitTime
  let b ← t.fitSpace
  let c ← t.fitPress lower
  let d ← t.fitRate lower
  return ⟨a, b, c, d⟩

section
variable (F : Fits K)

/-- `__add_time(scale=True)` (l.658-673). -/
def SInput.timeColS (t : SInput K) (melt : Bool) : Frame K :=
  let v := (times t.tstep t.dt).map F.time.apply
  [(.time, if melt then repeatEach v t.cells.length else v)]

/-- `array.flatten()` of the transformed `array[:, cells_id]`. (black_oil.py l.691-733) -/
def SInput.flatTableS (t : SInput K) (f : Fitted K) (a : List (List (Option K))) : List (Option (Val K)) :=
  a.flatMap fun r => t.cells.map fun id => f.entry ((r[id]?).getD none)

/-- `__add_cells_rate(scale=True)` (l.690-710). -/
def SInput.cellsRateS (t : SInput K) (melt : Bool) : Frame K :=
  if melt then [(.Q, t.flatTableS F.rate t.rates)]
  else t.cells.map fun id => (.cellQ id, (colOf t.rates id).map F.rate.entry)

/-- `__add_cells_pressures(scale=True)` (l.712-732). -/
def SInput.cellsPressS (t : SInput K) (melt : Bool) : Frame K :=
  if melt then [(.P, t.flatTableS F.press t.press)]
  else t.cells.map fun id => (.cellP id, (colOf t.press id).map F.press.entry)

/-- `__add_wells_rate(scale=True)` (l.734-749). -/
def SInput.wellsRateS (t : SInput K) : Frame K := t.wells.map fun id => (.wellQ id, (colOf t.rates id).map F.rate.entry)

/-- `__add_wells_pressures(scale=True)` (l.751-765). -/
def SInput.wellsPressS (t : SInput K) : Except Err (Frame K) :=
  if t.wpress.all (fun w => decide (w.2.length = ((t.wpress.head?.map (·.2.length)).getD 0))) then
    .ok (t.wpress.map fun w => (.wellP w.1, w.2.map F.press.entry))
  else .error .value

/-- `__add_xyz(scale=True)` (l.767-776, 839-859): the centres are scaled column by column, then tiled. -/
def SInput.xyzS (t : SInput K) : Frame K :=
  let scaled : List (List (Option (Val K))) := t.centers.map fun r => r.mapIdx fun j x => (F.space[j]?).bind fun f => f.apply x
  let flat := tileL scaled.flatten t.nsteps
  let d := t.fdir.length
  (List.range d).filterMap fun j => (t.fdir[j]?).map fun a =>
    (.axis a, (List.range (flat.length / d)).map fun r => (flat[r * d + j]?).getD none)

/-- The columns a part contributes (l.1026-1037). -/
def SInput.partS (t : SInput K) (melt : Bool) : Part → Except Err (Frame K)
  | .time => .ok (t.timeColS F melt)
  | .date => .ok (t.dateCol melt)
  | .cellsRate => .ok (t.cellsRateS F melt)
  | .cellsPress => .ok (t.cellsPressS F melt)
  | .wellsRate => .ok (if melt then [] else t.wellsRateS F)
  | .wellsPress => if melt then .ok [] else t.wellsPressS F

/-- One turn of the loop over requested columns (l.1022-1037). -/
def SInput.addColumnS (lower : String → String) (t : SInput K) (melt : Bool) (df : Frame K) (c : String) : Except Err (Frame K) :=
  if allParts.all (fun p => decide (lower c ∉ partNames p)) then .error .value
  else (allParts.filter fun p => decide (lower c ∈ partNames p)).foldlM (fun df p => do
    let f ← t.partS F melt p
    return df.concat f) df
end

/-- `get_df(columns, melt, scale=True, drop_nan, drop_zero)` (l.936-1060). -/
def SInput.getDfS (lower : String → String) (t : SInput K) (columns : List String) (melt dropNan dropZero : Bool) : Except Err (Frame K) := do
  let F ← t.fits lower
  let df : Frame K := if melt then
      Frame.concat [(.id, (tileL t.cells t.nsteps).map fun n => some (.nat n)),
        (.step, (repeatEach (List.range t.nsteps) t.cells.length).map fun n => some (.nat n))] (t.xyzS F)
    else []
  let df ← columns.foldlM (t.addColumnS F lower melt) df
  if melt then
    return if dropNan then df.dropRows else df
  else
    let df := if dropNan then df.dropNanCols else df
    return if dropZero then df.dropZeroCols else df
end RF
