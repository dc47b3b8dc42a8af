import Verif.Py
import Mathlib.Data.List.Dedup
/-!
# Model of `utils/helpers.py`: `isin`, `intersection`, `ispoints`, `reformat`, `remove_diag`
-/
namespace RF

/-- A point `(i, j, k)`. (helpers.py l.131-149) -/
abbrev Pt := ℤ × ℤ × ℤ

/-- What a container holds: integers (ids) or points. (helpers.py l.42-149) -/
inductive Elem where
  | id (n : ℤ)
  | pt (p : Pt)
  deriving DecidableEq, Repr

/-- Whether an element is a point. (helpers.py l.131-149) -/
def Elem.isPt : Elem → Bool
  | .pt _ => true
  | .id _ => false

/-- The containers these functions meet: 1-D integer arrays, `(n,3)` integer arrays, lists, tuples, sets and
dictionaries of lists. A set is given by its elements without repetition (in some order), `obj` is a 0-d object array holding
a set: what `np.array(some_set)` yields. (helpers.py l.42-201) -/
inductive PyData where
  | arr1 (l : List ℤ)
  | arr2 (l : List Pt)
  | list (l : List Elem)
  | tuple (l : List Elem)
  | set (l : List Elem)
  | dict (l : List (String × List Elem))
  | obj (l : List Elem)
  deriving DecidableEq, Repr

/-- The elements Python iterates over; rows of an `(n,3)` array as tuples. Iterating over a 0-d array is a `TypeError`. (helpers.py l.42-75, 151-201) -/
def PyData.iter : PyData → Except Err (List Elem)
  | .arr1 l => .ok (l.map .id)
  | .arr2 l => .ok (l.map .pt)
  | .list l | .tuple l | .set l => .ok l
  | .dict l => .ok (l.flatMap (·.2))
  | .obj _ => .error .type

/-- `np.array(data)` for a list or tuple: shape `(n,3)` if all entries are points, `(n,)` if all are integers, otherwise
`ValueError` (inhomogeneous). The empty sequence gives shape `(0,)`. (helpers.py l.151-201) -/
def npArray (l : List Elem) : Except Err PyData :=
  if l = [] then .ok (.arr1 [])
  else if l.all Elem.isPt then .ok (.arr2 (l.filterMap fun | .pt p => some p | .id _ => none))
  else if l.all (fun e => !e.isPt) then .ok (.arr1 (l.filterMap fun | .id n => some n | .pt _ => none))
  else .error .value

/-- `np.array(in_data)` (helpers.py l.145, 198). -/
def toArray : PyData → Except Err PyData
  | .arr1 l => .ok (.arr1 l)
  | .arr2 l => .ok (.arr2 l)
  | .list l | .tuple l => npArray l
  | .set l => .ok (.obj l)
  | .dict l => .ok (.obj (l.flatMap (·.2)))
  | .obj l => .ok (.obj l)

/-- `ispoints` (l.131-148): more than one axis and the last of length three. -/
def ispoints (d : PyData) : Except Err Bool := do
  match ← toArray d with
  | .arr2 _ => pure true
  | _ => pure false

/-- `sum(in_data.values(), [])` for a dictionary (l.178-181), other data unchanged. -/
def PyData.undict : PyData → PyData
  | .dict l => .list (l.flatMap (·.2))
  | d => d

/-- Whether the container is a dictionary. (helpers.py l.151-201) -/
def PyData.isDict : PyData → Bool
  | .dict _ => true
  | _ => false

/-- `reformat` (l.151-200). In the branches with `points` every element is turned into a tuple, otherwise elements are
taken as they are; both give the same elements here since rows of arrays only occur with `points`. -/
def reformat (d : PyData) (fmt : String) : Except Err PyData :=
  if d.isDict ∧ fmt = "dict" then .ok d
  else do
    let _ ← ispoints d.undict
    if fmt = "list" then return .list (← d.undict.iter)
    else if fmt = "tuple" then return .tuple (← d.undict.iter)
    else if fmt = "set" then return .set (← d.undict.iter).dedup
    else if fmt = "array" then toArray d.undict
    else .error .value

/-- `isin` (l.42-74). An integer is looked up with `==` on a 1-D array, a point in the rows of an `(n,3)` array. A point in a
1-D array is numpy's broadcasting comparison: any component equal to the entry at its place (three entries) or to the only
entry; other lengths are refused (numpy 1.25 and later). The keys of
a dictionary are axis names, and a 0-d array is compared as one object: no element is ever found in these. -/
def isin (x : Elem) : PyData → Except Err Bool
  | .arr2 l => .ok (l.any fun a => decide (Elem.pt a = x))
  | .arr1 l => match x with
    | .id n => .ok (l.contains n)
    | .pt (i, j, k) => match l with
      | [a] => .ok (a = i || a = j || a = k)
      | [a, b, c] => .ok (a = i || b = j || c = k)
      | _ => .error .value
  | .list l | .tuple l | .set l => .ok (l.contains x)
  | .dict _ | .obj _ => .ok false

/-- `intersection` of two arrays of points (l.77-107): `np.max(shape)` is the larger of the number of rows and three, an
array without rows having shape `(0, 3)`. The array with the smaller value (the first on a tie) is filtered by membership in
the other. -/
def intersection (a b : List Pt) (fmt : String) : Except Err PyData := do
  let xy := if max a.length 3 ≤ max b.length 3 then a.filter (fun p => b.any fun q => decide (Elem.pt q = Elem.pt p))
    else b.filter (fun p => a.any fun q => decide (Elem.pt q = Elem.pt p))
  if fmt = "tuple" ∨ fmt = "list" then pure (.list (xy.map .pt))
  else if fmt = "array" then npArray (xy.map .pt)
  else .error .value

/-- Number every element of a list. (helpers.py l.214-216) -/
def enum {α} (l : List α) : List (ℕ × α) := (List.range l.length).zip l

/-- `remove_diag` (l.214-216): the boolean mask `~eye(n)` selects entries in row order, which are reshaped to `n` rows. The
mask must have the array's shape (`IndexError`); `reshape(0, -1)` is refused by numpy. -/
def removeDiag {K : Type} (m : List (List K)) : Except Err (List (List K)) :=
  let n := m.length
  if m.any (fun r => r.length ≠ n) then .error .index
  else if n = 0 then .error .value
  else
    let flat := (enum m).flatMap fun ir => (enum ir.2).filterMap fun jv => if ir.1 ≠ jv.1 then some jv.2 else none
    .ok ((List.range n).map fun i => (flat.drop (i * (n - 1))).take (n - 1))
end RF
