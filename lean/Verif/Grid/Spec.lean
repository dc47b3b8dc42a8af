import Verif.Py
/-!
# Specification of a regular Cartesian grid, independent of the model

A grid has `n` cells along each axis; an axis with more than one cell carries flow and gets one extra (boundary) cell at
each end. Cells are coordinate triples `(i, j, k)`.
-/
namespace RF.Spec

/-- A cell position `(i, j, k)`. -/
abbrev Cell := ℕ × ℕ × ℕ

/-- Number of cells along an axis once boundary cells are added. -/
def padded (n : ℕ) : ℕ := if 1 < n then n + 2 else n

/-- The padded grid. -/
def InGrid (nx ny nz : ℕ) (c : Cell) : Prop :=
  c.1 < padded nx ∧ c.2.1 < padded ny ∧ c.2.2 < padded nz

/-- A coordinate is not in the outermost layer of its axis (axes without flow have no outermost layer). -/
def innerCoord (n c : ℕ) : Prop := if 1 < n then 0 < c ∧ c < n + 1 else c < n

/-- The cells that are not on any boundary layer. -/
def Interior (nx ny nz : ℕ) (c : Cell) : Prop :=
  innerCoord nx c.1 ∧ innerCoord ny c.2.1 ∧ innerCoord nz c.2.2

/-- The cells of the padded grid that are on a boundary layer. -/
def Boundary (nx ny nz : ℕ) (c : Cell) : Prop := InGrid nx ny nz c ∧ ¬ Interior nx ny nz c

/-- Natural numbering of an `X × Y × …` box: `i` fastest, then `j`, then `k`. -/
def number (X Y : ℕ) (c : Cell) : ℕ := c.1 + X * (c.2.1 + Y * c.2.2)

/-- The number of a cell of the padded grid. -/
def cellNumber (nx ny : ℕ) (c : Cell) : ℕ := number (padded nx) (padded ny) c

/-- Two numbers differ by one. -/
def near (a b : ℕ) : Prop := a + 1 = b ∨ b + 1 = a

/-- Two cells share a face perpendicular to the axis. -/
def Adjacent : Axis → Cell → Cell → Prop
  | .x, a, b => near a.1 b.1 ∧ a.2.1 = b.2.1 ∧ a.2.2 = b.2.2
  | .y, a, b => a.1 = b.1 ∧ near a.2.1 b.2.1 ∧ a.2.2 = b.2.2
  | .z, a, b => a.1 = b.1 ∧ a.2.1 = b.2.1 ∧ near a.2.2 b.2.2

/-- Number of cells along an axis. -/
def along (nx ny nz : ℕ) : Axis → ℕ
  | .x => nx | .y => ny | .z => nz

/-- The axis carries flow. -/
def Flow (nx ny nz : ℕ) (a : Axis) : Prop := 1 < along nx ny nz a

instance (n c : ℕ) : Decidable (innerCoord n c) := by unfold innerCoord; infer_instance
instance (nx ny nz : ℕ) (c : Cell) : Decidable (InGrid nx ny nz c) := by unfold InGrid; infer_instance
instance (nx ny nz : ℕ) (c : Cell) : Decidable (Interior nx ny nz c) := by unfold Interior; infer_instance
instance (nx ny nz : ℕ) (c : Cell) : Decidable (Boundary nx ny nz c) := by unfold Boundary; infer_instance
instance (a b : ℕ) : Decidable (near a b) := by unfold near; infer_instance
instance (ax : Axis) (a b : Cell) : Decidable (Adjacent ax a b) := by cases ax <;> (unfold Adjacent; infer_instance)
instance (nx ny nz : ℕ) (a : Axis) : Decidable (Flow nx ny nz a) := by unfold Flow; infer_instance

end RF.Spec
