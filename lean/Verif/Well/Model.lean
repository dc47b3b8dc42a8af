import Verif.Grid.Model
import Mathlib.Analysis.SpecialFunctions.Pow.Real
import Mathlib.Analysis.SpecialFunctions.Log.Basic
/-!
# Model of the well index (`models/black_oil.py` l.362-451)

Over the real numbers. `np.log` of a non-positive number is NaN or minus infinity; the model's `Real.log` is used only for
positive arguments in the theorems.
-/
namespace RF
noncomputable section

/-- Sizes and permeabilities of the well's cell: `grid.d[·][cell]`, `grid.k[·][cell]`. (black_oil.py l.362-451) -/
structure WellCell where
  dx : ℝ
  dy : ℝ
  dz : ℝ
  kx : ℝ
  ky : ℝ

/-- The Peaceman radius of the two- and three-dimensional branches (l.424-435, 437-449). -/
def peaceman (c : WellCell) : ℝ :=
  0.28 * ((c.ky / c.kx) ^ (0.5 : ℝ) * c.dx ^ 2 + (c.kx / c.ky) ^ (0.5 : ℝ) * c.dy ^ 2) ^ (0.5 : ℝ) /
    ((c.ky / c.kx) ^ (0.25 : ℝ) + (c.kx / c.ky) ^ (0.25 : ℝ))

/-- `__calc_well_r_eq` (l.404-451). -/
def wellReq (fdir : FDir) (c : WellCell) : Except Err ℝ :=
  if fdir = [.x] ∨ fdir = [.y] then .ok (0.14 * (c.dx ^ 2 + c.dy ^ 2) ^ (0.5 : ℝ))
  else if fdir = [.x, .y] then .ok (peaceman c)
  else if fdir = [.x, .y, .z] then .ok (peaceman c)
  else .error .value

/-- Horizontal permeability of `__calc_well_G` (l.379-389). -/
def wellK (fdir : FDir) (c : WellCell) : Except Err ℝ :=
  if fdir = [.x] then .ok c.kx
  else if fdir = [.x, .y] then .ok ((c.kx * c.ky) ^ (0.5 : ℝ))
  else if fdir = [.x, .y, .z] then .ok ((c.kx * c.ky) ^ (0.5 : ℝ))
  else .error .value

/-- `__calc_well_G` (l.362-402) with radius `r`, equivalent radius `req` and skin `s` if set. -/
def wellG (fdir : FDir) (β : ℝ) (c : WellCell) (req r : ℝ) (s : Option ℝ) : Except Err ℝ := do
  let kH ← wellK fdir c
  let Gn := 2 * Real.pi * β * kH * c.dz
  let Gd := Real.log (req / r * 12)
  let Gd := match s with | some s => Gd + s | none => Gd
  pure (Gn / Gd)

/-- The well index `set_well` stores (l.515-516): equivalent radius first, then the factor with it. -/
def wellIndex (fdir : FDir) (β : ℝ) (c : WellCell) (r : ℝ) (s : Option ℝ) : Except Err ℝ := do
  let req ← wellReq fdir c
  wellG fdir β c req r s

end
end RF
