import Verif.Units.Model
import Verif.Registry.Model
/-!
# Model of fluid and well objects (`fluids/fluid.py`, `fluids/single_phase.py`, `wells/single_cell.py`, `base.py`)

A Python object is the dictionary of its attributes, `vars(self)`, in the order in which they were first assigned. A method is a function from the dictionary before the call to the
dictionary after it and the outcome: a call that raises keeps what it assigned before.
-/
namespace RF.Objects
open RF

/-- Values of attributes: numbers, texts, `None`, flags, bound methods, and the entries of `UNITS` and `FACTORS` for a unit system. (base.py l.277-301, single_phase.py l.88-190) -/
inductive Val (K : Type) where
  | num (x : K)
  | str (s : String)
  | none
  | flag (b : Bool)
  | method (name : String)
  | units (system : String)
  | factors (system : String)
  deriving DecidableEq

/-- `vars(self)` (base.py l.330). -/
abbrev Obj (K : Type) := List (String × Val K)

/-- A method with its arguments. (single_phase.py l.88-190) -/
abbrev Act (K : Type) := Obj K → Obj K × Except Err Unit

section
variable {K : Type}

/-- `self.name = v`. (single_phase.py l.92-190) -/
def put (name : String) (v : Val K) : Act K := fun o => (dictSet o name v, .ok ())

/-- `self.new = self.old`: an `AttributeError` if there is no `old`. (single_phase.py l.183-190) -/
def copy (new old : String) : Act K := fun o => match dictGet o old with
  | some v => put new v o
  | none => (o, .error .attribute)

/-- One statement after the other; an exception ends the method. (single_phase.py l.150-162) -/
def andThen (a b : Act K) : Act K := fun o => match a o with
  | (o, .ok ()) => b o
  | (o, .error x) => (o, .error x)

infixl:60 " ;; " => andThen

/-- `pass`. (single_phase.py l.150-162) -/
def skip : Act K := fun o => (o, .ok ())

/-- `set_units(unit)` (base.py l.281-301). -/
def setUnits (unit : String) : Act K :=
  if unit ∈ UNITS.map Prod.fst then put "unit" (.str unit) ;; put "units" (.units unit) ;; put "factors" (.factors unit)
  else fun o => (o, .error .value)

/-- `Base.__init__(unit, dtype, verbose)` (base.py l.257-279). -/
def baseInit (unit dtype : String) (verbose : Bool) : Act K := setUnits unit ;; put "dtype" (.str dtype) ;; put "verbose" (.flag verbose)

/-! ## `report` -/

/-- What is printed: a table, a line, or a complaint. (base.py l.331-368) -/
inductive Printed (K : Type) where
  | table (rows : List (String × Val K))
  | line (name : String) (v : Val K)
  | unknown
  deriving DecidableEq

/-- `report(prop)` (base.py l.303-368); the formatting is not modelled. -/
def report (o : Obj K) (prop : Option String) : Printed K :=
  match prop with
  | none => .table (o.filter fun e => e.1 ∉ ["units", "factors", "pv_grid", "corners", "centers"])
  | some p => match dictGet o p with
    | some v => .line p v
    | none => .unknown

/-! ## Calls -/

/-- A call by a user: a method with positional arguments, found by its name; or a change of units. (base.py l.281, single_phase.py l.92-190) -/
inductive Call (K : Type) where
  | call (name : String) (args : List (Val K))
  | units (system : String)

/-- Attribute lookup and call: the dictionary of the object comes first, then the methods of the class. A missing name is an `AttributeError`, a value that is not a method is not
callable. (single_phase.py l.183-190) -/
def invoke (cls : String → Option (List (Val K) → Act K)) (name : String) (args : List (Val K)) : Act K := fun o =>
  match dictGet o name with
  | some (.method m) => (match cls m with
    | some f => f args o
    | none => (o, .error .attribute))
  | some _ => (o, .error .type)
  | none => (match cls name with
    | some f => f args o
    | none => (o, .error .attribute))

/-- One call. (base.py l.281, single_phase.py l.92-190) -/
def Call.act (cls : String → Option (List (Val K) → Act K)) : Call K → Act K
  | .call name args => invoke cls name args
  | .units u => setUnits u

/-- A sequence of calls; the user goes on after exceptions. (base.py l.281, single_phase.py l.92-190) -/
def after (cls : String → Option (List (Val K) → Act K)) (o : Obj K) (cs : List (Call K)) : Obj K := cs.foldl (fun o c => (c.act cls o).1) o

/-- A method with one argument. (single_phase.py l.92-125) -/
def one (f : Val K → Act K) : List (Val K) → Act K
  | [v] => f v
  | _ => fun o => (o, .error .type)

/-- Synonyms of attributes and methods, one assignment at a time. (single_phase.py l.183-190, single_cell.py l.48-55) -/
def each : List (Act K) → Act K
  | [] => skip
  | a :: l => a ;; each l
end

/-! ## `SinglePhase` -/

namespace Fluid
variable {K : Type} [Field K] [LinearOrder K]

/-- `set_mu(mu)` (single_phase.py l.92-100). -/
def setMu (v : Val K) : Act K := put "mu" v

/-- `set_B(B)` (single_phase.py l.102-110). -/
def setB (v : Val K) : Act K := put "B" v

/-- `self.g = factors["gravity conversion"] * rho * factors["gravitational acceleration"]` (single_phase.py l.121-125); anything but a number cannot be multiplied. -/
def gravity (v : Val K) : Act K := fun o => match dictGet o "factors" with
  | some (.factors u) => (match (do
      let f ← (FACTORS K).get u
      let c ← f.get "gravity conversion"
      let a ← f.get "gravitational acceleration"
      match v with
      | .num x => pure (c * x * a)
      | _ => throw Err.type) with
    | .ok x => put "g" (.num x) o
    | .error x => (o, .error x))
  | _ => (o, .error .attribute)

/-- `set_rho(rho)` (single_phase.py l.112-125). -/
def setRho (v : Val K) : Act K := put "rho" v ;; gravity v

/-- The classification in `set_comp` (fluid.py l.58-64); anything but a number cannot be compared. -/
def classify : Val K → Act K
  | .num x =>
    if x = 0 then put "comp_type" (.str "incompressible")
    else if 0 < x then put "comp_type" (.str "compressible")
    else put "comp_type" .none ;; fun o => (o, .error .value)
  | _ => fun o => (o, .error .type)

/-- `set_comp(comp)` (fluid.py l.44-64). -/
def setComp (v : Val K) : Act K := put "comp" v ;; classify v

/-- `if v is not None: self.set_…(v)`. (single_phase.py l.150-157) -/
def given (f : Val K → Act K) (v : Val K) : Act K := if v = .none then skip else f v

/-- `if not hasattr(self, name): self.set_…(0)`. (single_phase.py l.158-161) -/
def default (name : String) (f : Val K → Act K) : Act K := fun o => if (dictGet o name).isSome then (o, .ok ()) else f (.num 0) o

/-- `set_props(mu, B, rho, comp)` (single_phase.py l.127-161). -/
def setProps (mu B rho comp : Val K) : Act K :=
  given setMu mu ;; given setB B ;; given setRho rho ;; given setComp comp ;; default "rho" setRho ;; default "comp" setComp

/-- The `n`-th positional argument, or its default `None`. (single_phase.py l.127-133) -/
def arg (args : List (Val K)) (n : ℕ) : Val K := args.getD n .none

/-- `allow_synonyms()` (single_phase.py l.166-190). The methods exist in the class, so that their synonyms are assigned without fail. In `a = b = v` the target `a` comes first. -/
def allowSynonyms : Act K := each [
  put "set_viscosity" (.method "set_mu"), copy "viscosity" "mu",
  put "set_density" (.method "set_rho"), copy "density" "rho",
  copy "gravity" "g",
  put "set_formation_volume_factor" (.method "set_B"), put "set_FVF" (.method "set_B"), copy "formation_volume_factor" "B", copy "FVF" "B",
  put "set_properties" (.method "set_props")]

/-- The methods of the class. (fluid.py l.44, single_phase.py l.92-190) -/
def cls : String → Option (List (Val K) → Act K)
  | "set_mu" => some (one setMu)
  | "set_B" => some (one setB)
  | "set_rho" => some (one setRho)
  | "set_comp" => some (one setComp)
  | "set_props" => some fun args => if args.length ≤ 4 then setProps (arg args 0) (arg args 1) (arg args 2) (arg args 3) else fun o => (o, .error .type)
  | "allow_synonyms" => some fun args => if args = [] then allowSynonyms else fun o => (o, .error .type)
  | _ => none

/-- `SinglePhase(mu, B, rho, comp, unit, dtype, verbose)` (single_phase.py l.24-90); if it raises there is no object. -/
def make (mu B rho comp : Val K) (unit dtype : String) (verbose : Bool) : Except Err (Obj K) :=
  match (baseInit unit dtype verbose ;; setProps mu B rho comp) [] with
  | (o, .ok ()) => .ok o
  | (_, .error x) => .error x

end Fluid

/-! ## `SingleCell` -/

namespace Well
variable {K : Type} [Field K] [LinearOrder K]

/-- `if v:` (single_cell.py l.34-41); methods and dictionaries are true. -/
def truthy : Val K → Bool
  | .num x => decide (x ≠ 0)
  | .str s => decide (s ≠ "")
  | .none => false
  | .flag b => b
  | _ => true

/-- `if v: self.set_…(v)`. (single_cell.py l.34-41) -/
def ifTrue (name : String) (v : Val K) : Act K := if truthy v then put name v else skip

/-- `set_props(cell_id, q, s, r, constrain)` (single_cell.py l.33-42). -/
def setProps (cell q s r con : Val K) : Act K := ifTrue "cell_id" cell ;; ifTrue "q" q ;; ifTrue "s" s ;; ifTrue "r" r ;; put "constrain" con

/-- `allow_synonyms()` (single_cell.py l.48-55). -/
def allowSynonyms : Act K := each [
  put "set_properties" (.method "set_props"), put "set_rate" (.method "set_q"), copy "rate" "q", put "set_skin" (.method "set_s"), copy "skin" "s",
  put "set_radius" (.method "set_r"), copy "radius" "r"]

/-- The methods of the class. (single_cell.py l.18-55) -/
def cls : String → Option (List (Val K) → Act K)
  | "set_cell_id" => some (one (put "cell_id"))
  | "set_q" => some (one (put "q"))
  | "set_s" => some (one (put "s"))
  | "set_r" => some (one (put "r"))
  | "set_constrain" => some (one (put "constrain"))
  | "set_props" => some fun args =>
    if args.length ≤ 5 then setProps (Fluid.arg args 0) (Fluid.arg args 1) (Fluid.arg args 2) (Fluid.arg args 3) (Fluid.arg args 4) else fun o => (o, .error .type)
  | "allow_synonyms" => some fun args => if args = [] then allowSynonyms else fun o => (o, .error .type)
  | _ => none

/-- `SingleCell(cell_id, q, s, r, constrain)` (single_cell.py l.15-16); `Base.__init__` is not called, the units are those of the class. -/
def make (cell q s r con : Val K) : Obj K := (setProps cell q s r con []).1

end Well
end RF.Objects
