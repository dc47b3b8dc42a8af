import Verif.Scaler.Model
import Mathlib.Analysis.SpecialFunctions.Trigonometric.Basic
import Mathlib.Algebra.BigOperators.Group.Finset.Basic
import Mathlib.Algebra.Order.Floor.Defs
import Mathlib.Algebra.Order.Archimedean.Real.Basic
/-!
# Model of the analytical 1D single-phase solution (`solutions/analytical/d1p1.py`)

Over the real numbers: rounding in `sin`, `exp` and `pi` is not modelled.
-/
namespace RF
noncomputable section
open Real

/-- `np.arange(0, stop, dt)` for positive `dt`: as many multiples of `dt` as lie below `stop`. (external code, called at black_oil.py l.779) -/
def arange (stop dt : ℝ) : List ℝ := (List.range ⌈stop / dt⌉₊).map fun i : ℕ => (i : ℝ) * dt

/-- `__get_time_vector` (black_oil.py l.778-779). -/
def timeVector (tstep : ℕ) (dt : ℝ) : List ℝ := arange ((tstep + 1 : ℕ) * dt) dt

/-- What the solution reads from the model: centres along the grid with boundary cells (`get_domain`), one diffusivity per cell
(`get_alpha`, l.635-646: a quotient of arrays over all cells), the table of pressures, the initial pressure and the time step. -/
structure AInput where
  x : List ℝ
  alpha : List ℝ
  p : List (List ℝ)
  pi : ℝ
  dt : ℝ

/-- `min` of a non-empty list, as `ndarray.min()`; zero for the empty list, where numpy raises. (external code, called at minmax.py l.56-66) -/
def lmin : List ℝ → ℝ
  | [] => 0
  | a :: l => minL a l
/-- `max` of a non-empty list. (external code, called at minmax.py l.56-66) -/
def lmax : List ℝ → ℝ
  | [] => 0
  | a :: l => maxL a l

/-- One entry of the truncated series (l.54-66, 146-159): `pD0 + (pDn - pD0) xD + 2/π Σ_{n=1..N} …`. -/
def pD (N : ℕ) (pDi pD0 pDn tD xD : ℝ) : ℝ :=
  pD0 + (pDn - pD0) * xD + 2 / Real.pi * ∑ n ∈ Finset.range N,
    ((pDi - pD0) / ((n + 1 : ℕ) : ℝ) + (pDn - pDi) * (-1) ^ (n + 1) / ((n + 1 : ℕ) : ℝ))
      * sin (((n + 1 : ℕ) : ℝ) * (Real.pi * xD)) * exp ((((n + 1 : ℕ) : ℝ) ^ 2) * (-Real.pi ^ 2 * tD))

/-- `clean` (l.68-71, 161-164). -/
def clip (v : ℝ) : ℝ := if v < 0 then 0 else if v > 1 then 1 else v

/-- The flattened dimensionless times (l.36-37, 133-134): `alpha * t / L**2` broadcasts the diffusivities of all cells against
the column of times, and `np.meshgrid` flattens the result. -/
def AInput.tD (a : AInput) (times : List ℝ) : List ℝ :=
  times.flatMap fun t => a.alpha.map fun al => al * t / (lmax a.x - lmin a.x) ^ 2

/-- Dimensionless positions (l.34-35). -/
def AInput.xD (a : AInput) : List ℝ := a.x.map fun x => (x - lmin a.x) / (lmax a.x - lmin a.x)

/-- `MinMax([0, 1])` fitted to all pressures (l.41-46), minmax.py l.68-80. -/
def AInput.scale (a : AInput) (v : ℝ) : ℝ := (1 - 0) * (v - lmin a.p.flatten) / (lmax a.p.flatten - lmin a.p.flatten) + 0
/-- Inverse of the scaling to the range 0 to 1. (minmax.py l.75-80, d1p1.py l.154, 192) -/
def AInput.unscale (a : AInput) (v : ℝ) : ℝ := (lmax a.p.flatten - lmin a.p.flatten) * (v - 0) / (1 - 0) + lmin a.p.flatten

/-- First and last entry of the first row of pressures (`p[0, 0]`, `p[0, -1]`). (d1p1.py l.156-157) -/
def AInput.p0 (a : AInput) : ℝ := ((a.p.head?.getD []).head?).getD 0
/-- Last entry of the first row. (d1p1.py l.157) -/
def AInput.pn (a : AInput) : ℝ := ((a.p.head?.getD []).getLast?).getD 0

/-- The dimensionless table (l.48-71). -/
def AInput.table (a : AInput) (N : ℕ) (clean : Bool) (times : List ℝ) : List (List ℝ) :=
  (a.tD times).map fun t => a.xD.map fun x =>
    let v := pD N (a.scale a.pi) (a.scale a.p0) (a.scale a.pn) t x
    if clean then clip v else v

/-- `calc_solution(N, scale, output_range, clean)` (l.27-85), the pressures; the model's time step `tstep` fixes the times. -/
def AInput.calc (a : AInput) (tstep N : ℕ) (scale : Bool) (lo hi : ℝ) (clean : Bool) : List (List ℝ) :=
  (a.table N clean (timeVector tstep a.dt)).map fun r => r.map fun v =>
    if scale then (hi - lo) * (v - 0) / (1 - 0) + lo else a.unscale v

/-- `run(nsteps)` (l.90-194): the table of pressures stored. -/
def AInput.run (a : AInput) (nsteps : ℕ) : List (List ℝ) := a.calc nsteps 1000 false (-1) 1 true
end
end RF
