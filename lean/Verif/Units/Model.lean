import Verif.Py
import Mathlib.Algebra.Order.Field.Basic
import Mathlib.Tactic.FieldSimp
/-!
# Model of units (`base.py`), fluid (`fluids/fluid.py`, `fluids/single_phase.py`) and compressibility (`grid.py`, `model.py`)
-/
namespace RF

/-- A dictionary from strings. (base.py l.3-97) -/
abbrev Dict (α : Type) := List (String × α)

/-- `UNITS` (base.py l.3-97). -/
def UNITS : Dict (Dict String) := [
  ("field", [
    ("transmissibility", "stb/(day.psi)"),
    ("error", "stb/day"),
    ("pressure", "psia"),
    ("potential", "psia"),
    ("time", "days"),
    ("rate", "stb/day"),
    ("length", "ft"),
    ("area", "ft^2"),
    ("volume", "ft^3"),
    ("permeability", "md"),
    ("viscosity", "cp"),
    ("gas formation volume factor", "bbl/scf"),
    ("liquid formation volume factor", "bbl/stb"),
    ("solution gas oil ratio", "scf/stb"),
    ("phase gravity", "psi/ft"),
    ("gas flow rate", "scf/day"),
    ("liquid flow rate", "stb/day"),
    ("volumetric velocity", "bbl/(day.ft^2)"),
    ("density", "lbm/ft^3"),
    ("compressibility", "psi^{-1}"),
    ("compressibility factor", "dimensionless"),
    ("temperature", "R"),
    ("porosity", "fraction"),
    ("saturation", "fraction"),
    ("relative permeability", "fraction"),
    ("angle", "rad"),
    ("gravitational acceleration", "ft/(sec^2)"),
    ("transmissibility conversion", "dimensionless"),
    ("gravity conversion", "dimensionless"),
    ("volume conversion", "dimensionless")]),
  ("metric", [
    ("transmissibility", "m^3/(day.bar)"),
    ("error", "m^3/day"),
    ("pressure", "kpa"),
    ("potential", "kpa"),
    ("time", "days"),
    ("rate", "m^3/day"),
    ("length", "m"),
    ("area", "m^2"),
    ("volume", "m^3"),
    ("permeability", "m^2"),
    ("viscosity", "mpa.sec"),
    ("gas formation volume factor", "m^3/(std\\,m^3)"),
    ("liquid formation volume factor", "m^3/(std\\,m^3)"),
    ("solution gas oil ratio", "(std\\,m^3)/(std\\,m^3)"),
    ("phase gravity", "kpa/m"),
    ("gas flow rate", "(std\\,m^3)/day"),
    ("liquid flow rate", "(std\\,m^3)/day"),
    ("volumetric velocity", "m/day"),
    ("density", "kg/m^3"),
    ("compressibility", "kpa^{-1}"),
    ("compressibility factor", "dimensionless"),
    ("temperature", "K"),
    ("porosity", "fraction"),
    ("saturation", "fraction"),
    ("relative permeability", "fraction"),
    ("angle", "rad"),
    ("gravitational acceleration", "m/(sec^2)"),
    ("transmissibility conversion", "dimensionless"),
    ("gravity conversion", "dimensionless"),
    ("volume conversion", "dimensionless")]),
  ("lab", [
    ("transmissibility", "cm^3/(sec.atm)"),
    ("error", "cm^3/sec"),
    ("pressure", "atm"),
    ("potential", "atm"),
    ("time", "sec"),
    ("rate", "cm^3/sec"),
    ("length", "cm"),
    ("area", "cm^2"),
    ("volume", "cm^3"),
    ("permeability", "darcy"),
    ("viscosity", "cp"),
    ("gas formation volume factor", "cm^3/(std\\,cm^3)"),
    ("liquid formation volume factor", "cm^3/(std\\,cm^3)"),
    ("solution gas oil ratio", "(std\\,cm^3)/(std\\,cm^3)"),
    ("phase gravity", "atm/cm"),
    ("gas flow rate", "(std\\,cm^3)/day"),
    ("liquid flow rate", "(std\\,cm^3)/day"),
    ("volumetric velocity", "cm/day"),
    ("density", "g/cm^3"),
    ("compressibility", "atm^{-1}"),
    ("compressibility factor", "dimensionless"),
    ("temperature", "K"),
    ("porosity", "fraction"),
    ("saturation", "fraction"),
    ("relative permeability", "fraction"),
    ("angle", "rad"),
    ("gravitational acceleration", "cm/(sec^2)"),
    ("transmissibility conversion", "dimensionless"),
    ("gravity conversion", "dimensionless"),
    ("volume conversion", "dimensionless")])]

/-- `FACTORS` (base.py l.99-118), as exact fractions. -/
def FACTORS (K : Type) [DivisionRing K] : Dict (Dict K) := [
  ("field", [
    ("gravitational acceleration", 16087 / 500),
    ("transmissibility conversion", 1127 / 1000000),
    ("gravity conversion", 1349 / 6250000),
    ("volume conversion", 5614583 / 1000000)]),
  ("metric", [
    ("gravitational acceleration", 1961327 / 200000),
    ("transmissibility conversion", 54 / 625),
    ("gravity conversion", 1 / 1000),
    ("volume conversion", 1)]),
  ("lab", [
    ("gravitational acceleration", 1961327 / 2000),
    ("transmissibility conversion", 1),
    ("gravity conversion", 986923 / 1000000000000),
    ("volume conversion", 1)])]

/-- Attributes of `Base` (base.py l.277-301). -/
structure Base (K : Type) where
  unit : String
  units : Dict String
  factors : Dict K

/-- Subscript `d[key]`. (base.py l.281-301) -/
def Dict.get {α : Type} (d : Dict α) (k : String) : Except Err α :=
  match d.lookup k with
  | some v => .ok v
  | none => .error .key

section
variable {K : Type} [Field K]

/-- `set_units(unit)` (base.py l.281-301); the argument `b` is the object before the call. -/
def setUnits (_b : Base K) (unit : String) : Except Err (Base K) :=
  if unit ∈ UNITS.map Prod.fst then do
    let u ← UNITS.get unit
    let f ← (FACTORS K).get unit
    pure ⟨unit, u, f⟩
  else .error .value

/-- What `SinglePhase` stores besides its units (single_phase.py l.92-160). -/
structure Fluid (K : Type) where
  base : Base K
  rho : K
  g : K

/-- `set_units` on a fluid (inherited): nothing else is recomputed. (base.py l.281-301) -/
def Fluid.setUnits (f : Fluid K) (unit : String) : Except Err (Fluid K) := do
  let b ← RF.setUnits f.base unit
  pure { f with base := b }

/-- `set_rho(rho)` (single_phase.py l.112-125). -/
def Fluid.setRho (f : Fluid K) (rho : K) : Except Err (Fluid K) := do
  let c ← f.base.factors.get "gravity conversion"
  let a ← f.base.factors.get "gravitational acceleration"
  pure { f with rho := rho, g := c * rho * a }

/-- `SinglePhase(rho=…, unit=…)` (single_phase.py l.88-90, 127-160); without `rho` the density is 0. -/
def Fluid.init (unit : String) (rho : Option K) : Except Err (Fluid K) := do
  let b ← RF.setUnits (⟨"", [], []⟩ : Base K) unit
  Fluid.setRho ⟨b, 0, 0⟩ (rho.getD 0)

/-- Calls on a fluid. (base.py l.281, single_phase.py l.112) -/
inductive FCall (K : Type) where
  | units (u : String)
  | rho (v : K)

/-- One call; a raising call leaves the fluid as it was (both setters raise before storing). (base.py l.281-301, single_phase.py l.112-125) -/
def Fluid.call (f : Fluid K) : FCall K → Fluid K
  | .units u => match f.setUnits u with | .ok f' => f' | .error _ => f
  | .rho v => match f.setRho v with | .ok f' => f' | .error _ => f

end

/-! ## Compressibility -/

/-- `comp_type`. (fluid.py l.44-68) -/
inductive CompType where
  | incompressible | compressible
  deriving DecidableEq, Repr

/-- The two attributes written by `set_comp`; `comp_type` may be `None`. (fluid.py l.44-68, grid.py l.70-94, model.py l.54-75) -/
structure Comp (K : Type) where
  comp : K
  type : Option CompType
  deriving DecidableEq

/-- `set_comp(comp)` of grid, fluid and model (grid.py l.70-90, fluid.py l.44-64, model.py l.54-75): returns the new state and
whether an error was raised. The value is stored before it is checked. -/
def setComp {K : Type} [Zero K] [LT K] [DecidableEq K] [DecidableRel (α := K) (· < ·)] (_s : Comp K) (v : K) :
    Comp K × Option Err :=
  if v = 0 then (⟨v, some .incompressible⟩, none)
  else if 0 < v then (⟨v, some .compressible⟩, none)
  else (⟨v, none⟩, some .value)

/-- `__calc_comp` (black_oil.py l.258-266). -/
def calcComp {K : Type} [Zero K] [Add K] [LT K] [DecidableEq K] [DecidableRel (α := K) (· < ·)] (fluid grid : Comp K) :
    Comp K × Option Err :=
  if fluid.type = grid.type ∧ grid.type = some .incompressible then setComp ⟨0, none⟩ 0
  else setComp ⟨0, none⟩ (fluid.comp + grid.comp)

end RF
