import Verif.Geom.Model
import Verif.Grid.Spec
import Mathlib.Algebra.BigOperators.Group.Finset.Basic
/-!
# Specification of cell geometry

A size argument gives each layer of cells along its axis a size; a cell is the box cut out by its three layers.
-/
namespace RF.Spec
open RF

variable {K : Type} [Field K]

/-- The size of layer `i` along an axis, as the user gave it. -/
def size : DArg K → ℕ → K
  | .scalar v, _ => v
  | .list l, i => l.getD i 0

/-- A size argument fits an axis of `n` cells: a number, or one entry per layer including boundary layers. -/
def Fits (n : ℕ) : DArg K → Prop
  | .scalar _ => True
  | .list l => l.length = padded n

/-- Distance of the near face of layer `i` from the near end of the padded grid. -/
def offset (d : DArg K) (i : ℕ) : K := ∑ m ∈ Finset.range i, size d m

/-- The three size arguments. -/
structure Sizes (K : Type) where
  x : DArg K
  y : DArg K
  z : DArg K

/-- Size of a cell along an axis. -/
def Sizes.along (s : Sizes K) (c : Cell) : Axis → K
  | .x => size s.x c.1 | .y => size s.y c.2.1 | .z => size s.z c.2.2

/-- Area of a cell's face perpendicular to an axis. -/
def Sizes.area (s : Sizes K) (c : Cell) : Axis → K
  | .x => size s.y c.2.1 * size s.z c.2.2
  | .y => size s.x c.1 * size s.z c.2.2
  | .z => size s.x c.1 * size s.y c.2.1

/-- Volume of a cell. -/
def Sizes.volume (s : Sizes K) (c : Cell) : K := size s.x c.1 * size s.y c.2.1 * size s.z c.2.2

/-- Midpoint of a cell. -/
def Sizes.center (s : Sizes K) (c : Cell) : K × K × K :=
  (offset s.x c.1 + size s.x c.1 / 2, offset s.y c.2.1 + size s.y c.2.1 / 2, offset s.z c.2.2 + size s.z c.2.2 / 2)

end RF.Spec
