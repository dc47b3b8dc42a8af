import Verif.Py
/-!
# Model of the solution registry (`solutions/compiler.py`, `models/model.py` l.77-129)

`lower` is Python's `str.lower`, kept as a parameter: the theorems hold for any function.
-/
namespace RF

/-- Solution types (compiler.py l.1-5). -/
inductive SType where | numerical | analytical | neurical
  deriving DecidableEq, Repr

/-- Names the compiler gives to methods (l.174-226). -/
inductive Method where
  | fdm | fvm | fem
  | d1p1 | d1p2 | d1p3 | d2p1 | d2p2 | d2p3 | d3p1 | d3p2 | d3p3
  | pinn | deeponet
  deriving DecidableEq, Repr

/-- `STYPES` (l.1-5). -/
def STYPES : SType → List String
  | .numerical => ["n", "num", "numerical"]
  | .analytical => ["a", "ana", "analytical"]
  | .neurical => ["nn", "neu", "neurical"]

/-- `METHODS` (l.7-36): which spellings are listed for a method. -/
def METHODS : Method → List String
  | .fdm => ["fdm", "finite difference method", "finite-difference-method"]
  | .fvm => ["fvm", "finite volume method", "finite-volume-method"]
  | .fem => ["fem", "finite element method", "finite-element-method"]
  | .d1p1 => ["d1p1", "1d1p", "1-dimension-1-phase", "1dimension1phase"]
  | .d1p2 => ["d1p2", "1d2p", "1-dimension-2-phase", "1dimension2phase"]
  | .d1p3 => ["d1p3", "1d3p", "1-dimension-3-phase", "1dimension3phase"]
  | .d2p1 => ["d2p1", "2d1p", "2-dimension-1-phase", "2dimension1phase"]
  | .d2p2 => ["d2p2", "2d1p", "2-dimension-2-phase", "2dimension2phase"]
  | .d2p3 => ["d2p3", "2d1p", "2-dimension-3-phase", "2dimension3phase"]
  | .d3p1 => ["d3p1", "3d1p", "3-dimension-1-phase", "3dimension1phase"]
  | .d3p2 => ["d3p2", "3d1p", "3-dimension-2-phase", "3dimension2phase"]
  | .d3p3 => ["d3p3", "3d1p", "3-dimension-3-phase", "3dimension3phase"]
  | .pinn => ["pinn", "physics informed neural network", "physics-informed-neural-network"]
  | .deeponet => ["deeponet", "deep operator network", "deep-operator-network"]

/-- The methods of a type, in the order in which they are tried (l.174-226). -/
def SType.methods : SType → List Method
  | .numerical => [.fdm, .fvm, .fem]
  | .analytical => [.d1p1, .d1p2, .d1p3, .d2p1, .d2p2, .d2p3, .d3p1, .d3p2, .d3p3]
  | .neurical => [.pinn, .deeponet]

/-- `__set_stype` (l.161-172). -/
def setStype (lower : String → String) (s : String) : Except Err SType :=
  if lower s ∈ STYPES .numerical then .ok .numerical
  else if lower s ∈ STYPES .analytical then .ok .analytical
  else if lower s ∈ STYPES .neurical then .ok .neurical
  else .error .value

/-- `__set_method` (l.174-226): the chain of `elif`s, first hit wins. -/
def setMethod (lower : String → String) (t : SType) (m : String) : Except Err Method :=
  match t.methods.find? (fun x => decide (lower m ∈ METHODS x)) with
  | some x => .ok x
  | none => .error .value

/-- `self.stype` as printed. (compiler.py l.161-172) -/
def SType.str : SType → String
  | .numerical => "numerical" | .analytical => "analytical" | .neurical => "neurical"

/-- `self.method` as printed. (compiler.py l.174-225) -/
def Method.str : Method → String
  | .fdm => "FDM" | .fvm => "FVM" | .fem => "FEM"
  | .d1p1 => "D1P1" | .d1p2 => "D1P2" | .d1p3 => "D1P3" | .d2p1 => "D2P1" | .d2p2 => "D2P2" | .d2p3 => "D2P3"
  | .d3p1 => "D3P1" | .d3p2 => "D3P2" | .d3p3 => "D3P3" | .pinn => "PINN" | .deeponet => "DeepONet"

/-- A compiler: type, method and sparse flag (l.40-84). -/
structure Compiler where
  stype : SType
  method : Method
  sparse : Bool
  deriving DecidableEq, Repr

/-- `Compiler.__str__` (l.238-244) for a model called `name`; Python prints booleans as `True` and `False`. -/
def Compiler.str (name : String) (c : Compiler) : String :=
  name ++ "-" ++ c.stype.str ++ "-" ++ c.method.str ++ "-" ++ (if c.sparse then "True" else "False")

/-- A value passed for the `sparse` argument: a boolean or something else. (compiler.py l.86-159) -/
inductive SparseArg where
  | bool (b : Bool)
  | other
  deriving DecidableEq, Repr

/-- Whether the class of a method can be instantiated as `Cls(model, sparse)` (l.86-159): only FDM and D1P1 define a
constructor that takes positional arguments, the constructors of the others take only keywords (`TypeError`). -/
def Method.ready : Method → Bool
  | .fdm | .d1p1 => true
  | _ => false

/-- `Compiler(model, stype, method, sparse)` (l.50-84) up to the new solution object. -/
def mkCompiler (lower : String → String) (s m : String) (sp : SparseArg) : Except Err Compiler := do
  match sp with
  | .other => .error .value
  | .bool b =>
    let t ← setStype lower s
    let x ← setMethod lower t m
    if x.ready then pure ⟨t, x, b⟩ else .error .type

/-- The part of a model touched by compilation. Solution objects are numbered in the order of creation; `solve` and `run` are
the objects the bound methods belong to. Dictionaries map names to values. (model.py l.77-166) -/
structure Registry where
  next : ℕ
  solution : Option ℕ
  compiler : Option Compiler
  solutions : List (String × ℕ)
  compilers : List (String × Compiler)
  solve : Option ℕ
  run : Option ℕ
  deriving DecidableEq, Repr

/-- A fresh model (model.py l.48-52). -/
def Registry.init : Registry := ⟨0, none, none, [], [], none, none⟩

/-- `d[key] = v`: replaces in place or appends. (Python dict) -/
def dictSet {α β : Type} [DecidableEq α] (d : List (α × β)) (k : α) (v : β) : List (α × β) :=
  if d.any (fun e => decide (e.1 = k)) then d.map (fun e => if e.1 = k then (k, v) else e) else d ++ [(k, v)]

/-- `d.get(key)`. (Python dict) -/
def dictGet {α β : Type} [DecidableEq α] (d : List (α × β)) (k : α) : Option β :=
  (d.find? (fun e => decide (e.1 = k))).map (·.2)

/-- Calls on the registry. (model.py l.77, 118) -/
inductive RCall where
  | compile (stype method : String) (sparse : SparseArg)
  | setSolution (name : String)
  deriving DecidableEq, Repr

/-- `compile` (l.110-115) and `set_solution` (l.118-125); the state is returned also when the call raises. -/
def Registry.step (lower : String → String) (name : String) (r : Registry) : RCall → Registry × Except Err Unit
  | .compile s m sp =>
    match mkCompiler lower s m sp with
    | .error e => (r, .error e)
    | .ok c =>
      let sol := r.next
      ({ next := r.next + 1
         solution := some sol
         compiler := some c
         solutions := dictSet r.solutions (c.str name) sol
         compilers := dictSet r.compilers (c.str name) c
         solve := some sol
         run := some sol }, .ok ())
  | .setSolution n =>
    match dictGet r.solutions n with
    | none => (r, .error .value)
    | some s =>
      match dictGet r.compilers n with
      | none => ({ r with solution := some s }, .error .key)
      | some c => ({ r with solution := some s, compiler := some c, solve := some s, run := some s }, .ok ())

/-- `get_solutions` (l.127-128). -/
def Registry.names (r : Registry) : List String := r.solutions.map (·.1)

/-- A history of calls; a raised exception is caught by the caller and the next call follows. (no line of the code: a sequence of calls) -/
def Registry.runAll (lower : String → String) (name : String) (r : Registry) : List RCall → Registry
  | [] => r
  | c :: cs => ((r.step lower name c).1).runAll lower name cs
end RF
