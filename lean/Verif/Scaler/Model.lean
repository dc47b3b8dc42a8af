import Verif.Py
import Mathlib.Algebra.Order.Field.Basic
import Mathlib.Data.Rat.Defs
import Mathlib.Algebra.Order.Ring.Rat
/-!
# Model of the scalers (`scalers/minmax.py`, `scalers/dummy.py`) and of `set_scalers` (`models/black_oil.py` l.865-934)

Data is a list of rows with `m` features each; a 1-D array is the case `m = 1`. `none` stands for a division by zero (NaN or
infinity in numpy).
-/
namespace RF
variable {K : Type}

/-- `MinMax` (minmax.py l.33-48). `range` holds `vmin` and `vmax` per feature, `none` before fitting. -/
structure MinMax (K : Type) (m : ℕ) where
  Vmin : K
  Vmax : K
  range : Option ((Fin m → K) × (Fin m → K))

/-- A scaler: `MinMax` or `Dummy`. (minmax.py l.37-49, dummy.py l.1-42) -/
inductive Scaler (K : Type) (m : ℕ) where
  | minmax (s : MinMax K m)
  | dummy

/-- The `axis` argument of `fit`: `0` or `None`. (minmax.py l.56) -/
inductive FitAxis where | zero | none
  deriving DecidableEq, Repr

section
variable [LinearOrder K] {m : ℕ}

/-- numpy `min` of a non-empty list. (external code, called at minmax.py l.56-66) -/
def minL (a : K) (l : List K) : K := l.foldl min a
/-- numpy `max` of a non-empty list. (external code, called at minmax.py l.56-66) -/
def maxL (a : K) (l : List K) : K := l.foldl max a

/-- `v.min(axis)`, `v.max(axis)`: per feature for axis 0, over everything for `None`; the empty array is a `ValueError`. (minmax.py l.56-66) -/
def fitRange (v : List (Fin m → K)) (ax : FitAxis) : Except Err ((Fin m → K) × (Fin m → K)) :=
  match ax with
  | .zero => match v with
    | [] => .error .value
    | r :: rs => .ok (fun j => minL (r j) (rs.map (· j)), fun j => maxL (r j) (rs.map (· j)))
  | .none => match v.flatMap List.ofFn with
    | [] => .error .value
    | a :: l => .ok (fun _ => minL a l, fun _ => maxL a l)

/-- `MinMax.fit` (l.56-66); `ndim` is the number of axes of the array. -/
def MinMax.fit (s : MinMax K m) (ndim : ℕ) (v : List (Fin m → K)) (ax : FitAxis) : Except Err (MinMax K m) :=
  if ndim > 2 ∧ ax = .zero then .error .value
  else do return { s with range := some (← fitRange v ax) }

/-- `Scaler.fit` for both classes (dummy.py l.26-27). -/
def Scaler.fit (s : Scaler K m) (ndim : ℕ) (v : List (Fin m → K)) (ax : FitAxis) : Except Err (Scaler K m) :=
  match s with
  | .minmax s => do return .minmax (← s.fit ndim v ax)
  | .dummy => .ok .dummy
end

section
variable [Field K] [DecidableEq K] {m : ℕ}

/-- Division with numpy's result outside the numbers as `none`. (minmax.py l.68-80) -/
def divN (a b : K) : Option K := if b = 0 then none else some (a / b)

/-- `MinMax.transform` (l.68-73). -/
def MinMax.transform (s : MinMax K m) (v : List (Fin m → K)) : Except Err (List (Fin m → Option K)) :=
  match s.range with
  | none => .error .value
  | some (vmin, vmax) => .ok (v.map fun r j =>
      (divN ((s.Vmax - s.Vmin) * (r j - vmin j)) (vmax j - vmin j)).map (· + s.Vmin))

/-- `MinMax.inverse_transform` (l.75-80). -/
def MinMax.inverse (s : MinMax K m) (v : List (Fin m → K)) : Except Err (List (Fin m → Option K)) :=
  match s.range with
  | none => .error .value
  | some (vmin, vmax) => .ok (v.map fun r j =>
      (divN ((vmax j - vmin j) * (r j - s.Vmin)) (s.Vmax - s.Vmin)).map (· + vmin j))

/-- `transform` of both classes (dummy.py l.29-30). -/
def Scaler.transform (s : Scaler K m) (v : List (Fin m → K)) : Except Err (List (Fin m → Option K)) :=
  match s with
  | .minmax s => s.transform v
  | .dummy => .ok (v.map fun r j => some (r j))

/-- `inverse_transform` of both classes (dummy.py l.32-33). -/
def Scaler.inverse (s : Scaler K m) (v : List (Fin m → K)) : Except Err (List (Fin m → Option K)) :=
  match s with
  | .minmax s => s.inverse v
  | .dummy => .ok (v.map fun r j => some (r j))

/-- `fit_transform` (minmax.py l.82-84). -/
def Scaler.fitTransform [LinearOrder K] (s : Scaler K m) (ndim : ℕ) (v : List (Fin m → K)) (ax : FitAxis) :
    Except Err (List (Fin m → Option K)) := do
  let s ← s.fit ndim v ax
  s.transform v
end

/-! ## `set_scalers` -/

/-- The four quantities. (black_oil.py l.865-895) -/
inductive Quantity where | time | space | pressure | rate
  deriving DecidableEq, Repr

/-- A scaler object as created by `create_scaler` (l.888-894): unfitted, with its output range. -/
inductive Made (K : Type) where
  | minmax (lo hi : K)
  | dummy
  deriving DecidableEq

/-- The scaler objects and the `scalers_dict` entries of a model. (black_oil.py l.865-934) -/
structure ScalerState (K : Type) where
  obj : Quantity → Made K
  entry : Quantity → Option (String × (K × K))

/-- `col_dict` (l.896-901). -/
def colNames : Quantity → List String
  | .time => ["t", "time", "all"]
  | .space => ["space", "spatial", "xyz", "x", "y", "z", "all"]
  | .pressure => ["p", "pressures", "pressure", "all"]
  | .rate => ["q", "rates", "rate", "all"]

/-- `create_scaler` (l.888-894). -/
def createScaler (lower : String → String) (ty : Option String) (range : Option (K × K)) :
    Except Err (Made K × Option String) :=
  match ty, range with
  | none, _ | _, none => .ok (.dummy, none)
  | some t, some r => if lower t ∈ ["minmax", "minmaxscaler"] then .ok (.minmax r.1 r.2, some "MinMax") else .error .value

/-- The chain of `elif`s that finds the quantity a column name stands for (l.907-921). -/
def quantityOf (lower : String → String) (c : String) : Option Quantity :=
  [Quantity.time, .space, .pressure, .rate].find? fun q => decide (lower c ∈ colNames q)

/-- One entry of the settings dictionary: column, scaler type, output range. (black_oil.py l.865-895) -/
structure Setting (K : Type) where
  column : String
  ty : Option String
  range : Option (K × K)

/-- One turn of the loop of `set_scalers` (l.904-934). -/
def setOne (lower : String → String) (s : ScalerState K) (e : Setting K) : Except Err (ScalerState K) := do
  match quantityOf lower e.column with
  | none => .error .value
  | some q =>
    let (o, str) ← createScaler lower e.ty e.range
    return { obj := Function.update s.obj q o
             entry := Function.update s.entry q (match e.ty, e.range, str with
               | some _, some r, some n => some (n, r)
               | _, _, _ => none) }

/-- `set_scalers` (l.865-934): entries in order; an exception leaves the state reached so far. -/
def setScalers (lower : String → String) (s : ScalerState K) : List (Setting K) → ScalerState K × Except Err Unit
  | [] => (s, .ok ())
  | e :: es => match setOne lower s e with
    | .error x => (s, .error x)
    | .ok s' => setScalers lower s' es
end RF
