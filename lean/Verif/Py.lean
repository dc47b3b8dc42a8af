import Mathlib.Data.List.Basic
import Mathlib.Data.Int.Basic
import Mathlib.Tactic.Ring
import Mathlib.Tactic.Linarith
import Mathlib.Data.List.Sort
import Mathlib.Data.List.Nodup
/-!
# Python and numpy notions used by all parts of the model

Exceptions are values (`Except Err`), n-dimensional arrays are a shape together with the entries in C order.
-/
namespace RF

/-- The Python exceptions that the modelled functions raise. Messages are dropped. (no line of the code) -/
inductive Err where
  /-- `AssertionError` -/ | assertion
  /-- `ValueError` -/ | value
  /-- `KeyError` -/ | key
  /-- `IndexError` -/ | index
  /-- `TypeError` -/ | type
  /-- `AttributeError` -/ | attribute
  /-- `UnboundLocalError` -/ | unbound
  /-- `NotImplementedError` -/ | notImplemented
  /-- `ZeroDivisionError`, or a floating-point division by zero that poisons the result -/ | zeroDiv
  /-- a NaN reached a computation that needs a number -/ | nan
  /-- the linear solver failed -/ | solver
  /-- `RecursionError` -/ | recursion
  deriving DecidableEq, Repr

/-- The coordinate axes; the code writes them as the characters `"x"`, `"y"`, `"z"`. (regular_cartesian.py l.270-307) -/
inductive Axis where | x | y | z
  deriving DecidableEq, Repr

/-- A numpy array: shape and entries in C order (numpy `ndarray`). (used throughout regular_cartesian.py) -/
structure NdArr (α : Type*) where
  shape : List ℕ
  data : List α

/-- An index expression for one axis, as used in the slices of `regular_cartesian.py`. (l.998-1236) -/
inductive Ix where
  /-- `:` -/ | full
  /-- `l:r` with `l` the number of entries dropped in front and `r = -1` when the flag is set, `None` otherwise -/
  | slice (l : ℕ) (cutLast : Bool)
  /-- the fancy index `[0, -1]` -/ | ends
  deriving DecidableEq, Repr

/-- The positions an index expression selects on an axis of `n` entries. (regular_cartesian.py l.998-1236) -/
def Ix.positions (n : ℕ) : Ix → List ℕ
  | .full => List.range n
  | .slice l cut => let rest := (List.range n).drop l; if cut then rest.dropLast else rest
  | .ends => [0, n - 1]

/-- C-order position of a multi-index in an array of the given shape (numpy memory layout). (external code) -/
def flatIdx : List ℕ → List ℕ → ℕ → ℕ
  | d :: ds, i :: is, acc => flatIdx ds is (acc * d + i)
  | _, _, acc => acc

/-- All multi-indices of a per-axis selection, last axis fastest. (external code) -/
def cart : List (List ℕ) → List (List ℕ)
  | [] => [[]]
  | l :: ls => l.flatMap fun a => (cart ls).map (a :: ·)

/-- The flat positions selected by one index expression per axis. (external code, used at regular_cartesian.py l.998-1236) -/
def selPositions (shape : List ℕ) (ixs : List Ix) : List ℕ :=
  (cart (List.zipWith Ix.positions shape ixs)).map fun ix => flatIdx shape ix 0

/-- numpy indexing `a[ix0, ix1, …]` with slices and at most one fancy list; the result keeps its axes. (regular_cartesian.py l.1080-1114, 1190-1236) -/
def NdArr.select {α} (a : NdArr α) (ixs : List Ix) : NdArr α where
  shape := List.zipWith (fun n ix => (Ix.positions n ix).length) a.shape ixs
  data := (selPositions a.shape ixs).filterMap (a.data[·]?)

/-- numpy `a.reshape(shape)`: keeps the entries, fails if the number of entries differs. (external code, used at regular_cartesian.py l.623-630) -/
def NdArr.reshape {α} (a : NdArr α) (shape : List ℕ) : Except Err (NdArr α) :=
  if shape.prod = a.data.length then .ok ⟨shape, a.data⟩ else .error .value

/-- numpy `a.flatten()`. (external code, used at regular_cartesian.py l.1190-1236) -/
def NdArr.flatten {α} (a : NdArr α) : NdArr α := ⟨[a.data.length], a.data⟩

/-- A one-dimensional array. (external code) -/
def NdArr.ofList {α} (l : List α) : NdArr α := ⟨[l.length], l⟩

end RF
