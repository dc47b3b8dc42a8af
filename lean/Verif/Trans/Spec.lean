import Verif.Geom.Spec
import Verif.Trans.Model
/-!
# Specification of connections between cells

Flow between two adjacent cells crosses half of each; the two half-cells are resistances in series.
-/
namespace RF.Spec
open RF

variable {K : Type} [Field K] [DecidableEq K]

/-- Permeability of a cell along an axis, as stored (0 if the property was never set). -/
def perm (g : Dims) (r : Rock K) (a : Axis) (c : Cell) : K := ((r.k a).getD []).getD (cellNumber g.nx g.ny c) 0

/-- Permeability has been set along every flow axis, one value per cell of the padded grid. -/
def RockSet (g : Dims) (r : Rock K) : Prop :=
  (∀ a l, r.k a = some l → l.length = padded g.nx * padded g.ny * padded g.nz) ∧
    ∀ a, Flow g.nx g.ny g.nz a → r.k a ≠ none

/-- Every stored permeability is constant over the interior. -/
def IsoSpec (g : Dims) (r : Rock K) : Prop :=
  ∀ a, r.k a ≠ none → ∀ c c', Interior g.nx g.ny g.nz c → Interior g.nx g.ny g.nz c' → perm g r a c = perm g r a c'

/-- Flow resistance of half a cell: half length over face area times permeability. -/
def halfResistance (d A k : K) : K := d / 2 / (A * k)

/-- Two half-cells in series; an impermeable cell blocks the connection. -/
def series (β d1 A1 k1 d2 A2 k2 : K) : K :=
  if k1 = 0 ∨ k2 = 0 then 0 else β / (halfResistance d1 A1 k1 + halfResistance d2 A2 k2)

/-- The geometric factor two adjacent cells should have. -/
def face (g : Dims) (s : Sizes K) (r : Rock K) (β : K) (a : Axis) (c c' : Cell) : K :=
  series β (s.along c a) (s.area c a) (perm g r a c) (s.along c' a) (s.area c' a) (perm g r a c')

/-- Every layer of the padded grid has positive size. -/
def PosSizes [LinearOrder K] (g : Dims) (s : Sizes K) : Prop :=
  (∀ i, i < padded g.nx → 0 < size s.x i) ∧ (∀ i, i < padded g.ny → 0 < size s.y i) ∧
    (∀ i, i < padded g.nz → 0 < size s.z i)

/-- Interior permeabilities along flow axes are positive. -/
def PosPerm [LinearOrder K] (g : Dims) (r : Rock K) : Prop :=
  ∀ a, Flow g.nx g.ny g.nz a → ∀ c, Interior g.nx g.ny g.nz c → 0 < perm g r a c

end RF.Spec
