import Verif.Trans.Model
import Verif.Registry.Model
import Verif.Units.Model
/-!
# Model of the finite-difference solution (`solutions/numerical/fdm.py`) and of the model state it works on
(`models/black_oil.py` l.202-256, 453-632)

Numbers live in a field. A pressure that is NaN (never set) is `none`. Rows of the pressure and rate tables are functions of
the cell id (all cells, boundary cells included); matrices and right-hand sides are functions of positions in the interior
listing (`cells_i`). Dense and sparse containers are not distinguished. The `_lru_cache` decorators are left out here.

sympy expressions are affine in the cell pressures, which are the only symbols: `Aff`.
-/
namespace RF.Fdm
open RF RF.Dims

/-! ## What the solution reads -/

/-- The parts of grid, fluid and model that the solution reads and never changes. (black_oil.py l.31-178) -/
structure Env (K : Type) where
  /-- interior ids: `grid.cells_id`, `model.cells_id` -/
  ids : List ℕ
  /-- ids of the boundary cells: `grid.get_boundaries("id", …)` -/
  bnd : List ℕ
  /-- number of cells including boundary cells: `grid.get_n(True)` -/
  nAll : ℕ
  /-- `model.get_cells_trans(False, sparse, True)`, by position -/
  transV : ℕ → ℕ → K
  /-- `model.get_cell_trans(id, None, boundary).items()` -/
  transC : ℕ → Bool → Except Err (List (ℕ × K))
  /-- `grid.get_cell_neighbors(id, None, False, "dict")` -/
  nbrs : ℕ → Except Err (ByAxis ℕ)
  /-- `grid.get_cell_boundaries(id)` -/
  bnds : ℕ → Except Err (ByAxis ℕ)
  /-- `model.get_cells_trans_diag(True, 1)[model.cells_id]`, by position -/
  diag1 : ℕ → K
  /-- `grid.d[dir][id]` -/
  size : Axis → ℕ → K
  /-- depth `grid.z[id]` -/
  z : ℕ → K
  /-- `fluid.g`, `fluid.mu`, `fluid.B` -/
  grav : K
  mu : K
  B : K
  /-- `comp_type == "compressible"` (otherwise `"incompressible"`) -/
  comp : Bool
  /-- `model.RHS[id]` -/
  rhs : ℕ → K
  /-- `__calc_well_r_eq(id)` -/
  wellReq : ℕ → Except Err K
  /-- `__calc_well_G(id)` with equivalent radius, radius and skin -/
  wellG : ℕ → K → K → Option K → Except Err K

/-- `model.n` (black_oil.py l.133). -/
def Env.n {K : Type} (e : Env K) : ℕ := e.ids.length

/-! ## Wells and boundaries of the model -/

/-- The `constrain` entry of a well. -/
inductive Con where | q | pwf
  deriving DecidableEq, Repr

/-- The dictionary kept for a well; `none` is a missing key (for `con`: the value `None`). (black_oil.py l.453-529) -/
structure Well (K : Type) where
  q : Option K := none
  qsp : Option K := none
  pwf : Option K := none
  pwfsp : Option K := none
  r : Option K := none
  s : Option K := none
  req : Option K := none
  G : Option K := none
  con : Option Con := none
  deriving DecidableEq

/-- A sympy expression: `Σ coef id * p_id + const`. A number is an expression without symbols. (fdm.py l.90, 255) -/
structure Aff (K : Type) where
  coef : ℕ → K
  const : K

namespace Aff
variable {K : Type} [Field K]
/-- A number. (fdm.py l.178-211) -/
def c (v : K) : Aff K := ⟨fun _ => 0, v⟩
/-- `Symbol('p{id}')`. (fdm.py l.90, 255) -/
def p (id : ℕ) : Aff K := ⟨fun j => if j = id then 1 else 0, 0⟩
/-- Sum of two expressions. (fdm.py l.312) -/
def add (a b : Aff K) : Aff K := ⟨fun j => a.coef j + b.coef j, a.const + b.const⟩
/-- Difference of two expressions. (fdm.py l.213-219) -/
def sub (a b : Aff K) : Aff K := ⟨fun j => a.coef j - b.coef j, a.const - b.const⟩
/-- A number times an expression. (fdm.py l.91-93) -/
def smul (k : K) (a : Aff K) : Aff K := ⟨fun j => k * a.coef j, k * a.const⟩
/-- Python's `sum`. (fdm.py l.312) -/
def sum (l : List (Aff K)) : Aff K := l.foldl add (c 0)
/-- `as_coefficients_dict().values()` of an expression in the single symbol `p_id`: the number first, parts that are zero are
absent (sympy drops them). (fdm.py l.547, 562) -/
def values [DecidableEq K] (a : Aff K) (id : ℕ) : List K :=
  (if a.const = 0 then [] else [a.const]) ++ (if a.coef id = 0 then [] else [a.coef id])
end Aff

/-- The flow terms and the accumulation term kept for a cell (`cells_terms[id]`, fdm.py l.270). -/
structure Terms (K : Type) where
  f : List (Aff K)
  a : Aff K

/-- The state of a model that the solution reads or changes (black_oil.py l.94-160). -/
structure Mdl (K : Type) where
  initP : ℕ → Option K
  initR : ℕ → K
  bdict : List (ℕ × String × K)
  bUpdate : List ℕ
  wells : List (ℕ × Well K)
  wPress : List (ℕ × List (Option K))
  terms : List (ℕ × Terms K)

/-- A compiled finite-difference solution (solution.py l.36-42, fdm.py l.51-55). `vA`, `bV`, `resolve` are the attributes
`A_`, `bdict_v`, `resolve` of the vectorised assembler, `sA`, `sd` the attributes `A`, `d` of the symbolic one. -/
structure Sol (K : Type) where
  press : List (ℕ → Option K)
  rates : List (ℕ → K)
  tstep : ℕ
  nsteps : ℕ
  ctime : K
  As : List (ℕ → ℕ → K)
  ds : List (ℕ → K)
  vA : Option (ℕ → ℕ → K)
  bV : List (ℕ × K × K × ℕ)
  resolve : ℕ → Bool
  sM : Option ((ℕ → ℕ → K) × (ℕ → K))

section
variable {K : Type} [Field K]

/-- A model right after creation with initial pressure `pi` and without wells (black_oil.py l.139-160, 101-103). -/
def Mdl.init (e : Env K) (pi : Option K) : Mdl K :=
  ⟨fun id => if id ∈ e.ids then pi else none, fun _ => 0, [], [], [], [], []⟩

/-- A new solution copies the initial arrays (solution.py l.38, fdm.py l.54-55). -/
def Sol.init (m : Mdl K) : Sol K :=
  ⟨[m.initP], [m.initR], 0, 1, 0, [fun _ _ => 0], [fun _ => 0], none, [], fun _ => false, none⟩

/-- The last row of a table (`array[-1]`). (fdm.py l.759, 761) -/
def lastRow {α : Type} (l : List (ℕ → α)) (z : α) : ℕ → α := l.getLastD fun _ => z

/-- `array[tstep]`; the tables always have more than `tstep` rows. (fdm.py l.607, 613, 781) -/
def rowAt {α : Type} (l : List (ℕ → α)) (t : ℕ) (z : α) : ℕ → α := l.getD t fun _ => z

/-- `__get_pressure(__get_tstep(), id)` (black_oil.py l.212-226); `none` for the solution: model not compiled. -/
def getPressure (m : Mdl K) (s : Option (Sol K)) (id : ℕ) : Option K :=
  match s with
  | none => m.initP id
  | some s => if s.tstep = 0 then m.initP id else rowAt s.press s.tstep none id

/-- `d[key]` that must exist. (fdm.py l.599-669) -/
def need {α : Type} : Option α → Except Err α
  | some v => .ok v
  | none => .error .key

/-- `w_pressures[id].append(v)` with `defaultdict(list)`. (fdm.py l.606, black_oil.py l.470-529) -/
def appendAt (d : List (ℕ × List (Option K))) (id : ℕ) (v : Option K) : List (ℕ × List (Option K)) :=
  dictSet d id (((dictGet d id).getD []) ++ [v])

/-! ### `set_well` (black_oil.py l.453-527) -/

/-- Keyword arguments of `set_well`. (black_oil.py l.453) -/
structure WellArgs (K : Type) where
  q : Option K := none
  pwf : Option K := none
  r : Option K := none
  s : Option K := none
  deriving DecidableEq

/-- The dictionary after the keyword arguments are stored (l.490-512), before the radius and the factor are computed. -/
def mergeArgs (w : Well K) (a : WellArgs K) : Well K :=
  let w := match a.q with | some q => { w with q := some q, qsp := some q, con := some .q } | none => w
  let w := match a.pwf with
    | some p => { w with pwf := some p, pwfsp := some p, con := if w.q.isSome then w.con else some .pwf }
    | none => w
  let w := match a.r with | some r => { w with r := some r } | none => w
  match a.s with | some s => { w with s := some s } | none => w

/-- The end of `set_well` (l.514-524): equivalent radius, factor, default bottom-hole pressure. The state is returned also when
an exception is raised. -/
def finishWell (e : Env K) (m : Mdl K) (s : Option (Sol K)) (id : ℕ) (w : Well K) : Mdl K × Except Err Unit :=
  match e.wellReq id with
  | .error x => ({ m with wells := dictSet m.wells id w }, .error x)
  | .ok req =>
    let w := { w with req := some req }
    match w.r with
    | none => ({ m with wells := dictSet m.wells id w }, .error .key)
    | some r =>
      match e.wellG id req r w.s with
      | .error x => ({ m with wells := dictSet m.wells id w }, .error x)
      | .ok G =>
        let w := { w with G := some G }
        match w.pwf with
        | some _ => ({ m with wells := dictSet m.wells id w }, .ok ())
        | none => ({ m with wells := dictSet m.wells id { w with pwf := some 0, pwfsp := some 0 },
                            wPress := appendAt m.wPress id (getPressure m s id) }, .ok ())

/-- `set_well(cell_id=…, q=…, pwf=…, r=…, s=…)`. (black_oil.py l.453-529) -/
def setWell (e : Env K) (m : Mdl K) (s : Option (Sol K)) (id : Option ℕ) (a : WellArgs K) : Mdl K × Except Err Unit :=
  match id with
  | none => (m, .error .assertion)
  | some id =>
    if id ∈ e.ids then
      let m' := match a.pwf with
        | some _ => { m with wPress := appendAt m.wPress id (getPressure m s id) }
        | none => m
      finishWell e m' s id (mergeArgs ((dictGet m.wells id).getD {}) a)
    else (m, .error .assertion)

/-- A `SingleCell` object (wells/single_cell.py l.16-42): an attribute exists only if a truthy value was given; `constrain`
always exists. -/
structure WellObj (K : Type) where
  cell : Option ℕ := none
  q : Option K := none
  s : Option K := none
  r : Option K := none
  con : Option Con := none
  deriving DecidableEq

/-- `SingleCell(cell_id, q, s, r, constrain)`: `if q: self.set_q(q)` drops zeros. (single_cell.py l.15-46) -/
def mkObj [DecidableEq K] (cell : Option ℕ) (q s r : Option K) (con : Option Con) : WellObj K :=
  { cell := cell.filter (· ≠ 0), q := q.filter (· ≠ 0), s := s.filter (· ≠ 0), r := r.filter (· ≠ 0), con := con }

/-- `set_well(well, cell_id=…)` (l.483-489): the attributes of the object become the well's dictionary. (The dictionary *is*
the object's, so later changes of one are changes of the other; see `Heap.lean`.) A missing `cell_id` attribute is
an `AttributeError`. -/
def setWellObj (e : Env K) (m : Mdl K) (s : Option (Sol K)) (id : Option ℕ) (o : WellObj K) : Mdl K × Except Err Unit :=
  match (match id with | some i => some i | none => o.cell) with
  | none => (m, .error .attribute)
  | some id =>
    if id ∈ e.ids then finishWell e m s id { q := o.q, s := o.s, r := o.r, con := o.con }
    else (m, .error .assertion)

/-! ### Boundary conditions (black_oil.py l.533-614) -/

/-- `__set_rate`, `__set_pressure` (l.228-256). -/
def setRate (m : Mdl K) (s : Option (Sol K)) (id : ℕ) (v : K) : Mdl K × Option (Sol K) :=
  match s with
  | none => ({ m with initR := Function.update m.initR id v }, none)
  | some s =>
    if s.tstep = 0 then ({ m with initR := Function.update m.initR id v }, some s)
    else (m, some { s with rates := s.rates.modify s.tstep fun r => Function.update r id v })

/-- Write a boundary pressure into the solution, or into the initial array if there is none. (black_oil.py l.228-236) -/
def setPressure (m : Mdl K) (s : Option (Sol K)) (id : ℕ) (v : K) : Mdl K × Option (Sol K) :=
  match s with
  | none => ({ m with initP := Function.update m.initP id (some v) }, none)
  | some s =>
    if s.tstep = 0 then ({ m with initP := Function.update m.initP id (some v) }, some s)
    else (m, some { s with press := s.press.modify s.tstep fun r => Function.update r id (some v) })

/-- The axis under which an id is listed: `[dir for dir in cell_n if cell_id in cell_n[dir]][0]` (l.561). -/
def axisOf (d : ByAxis ℕ) (id : ℕ) : Except Err Axis :=
  match [Axis.x, .y, .z].find? fun a => decide (id ∈ d.get a) with
  | some a => .ok a
  | none => .error .index

/-- The rate a gradient condition stores (l.559-567). The tuple assignment needs exactly one item. -/
def gradientRate (e : Env K) (idb : ℕ) (v : K) : Except Err K := do
  match ← e.transC idb false with
  | [(id, T)] => do
    let d ← e.nbrs idb
    let a ← axisOf d id
    pure (T * e.size a id * v)
  | _ => .error .value

/-- `set_boundary(cell_b_id, cond, v)` (l.533-575). -/
def setBoundary (lower : String → String) (e : Env K) (m : Mdl K) (s : Option (Sol K)) (idb : ℕ) (cond : String) (v : K) :
    (Mdl K × Option (Sol K)) × Except Err Unit :=
  if lower cond ∈ ["rate", "q"] then (setRate m s idb v, .ok ())
  else if lower cond ∈ ["pressure", "press", "p"] then (setPressure m s idb v, .ok ())
  else if lower cond ∈ ["gradient", "grad", "g"] then
    match gradientRate e idb v with
    | .ok q => (setRate m s idb q, .ok ())
    | .error x => ((m, s), .error x)
  else ((m, s), .error .value)

/-- The loop of `set_boundaries` (l.588-591). -/
def setBoundaryLoop (lower : String → String) (e : Env K) (m : Mdl K) (s : Option (Sol K)) :
    List (ℕ × String × K) → (Mdl K × Option (Sol K)) × Except Err Unit
  | [] => ((m, s), .ok ())
  | (id, cond, v) :: t =>
    if id ∈ e.bnd then
      match setBoundary lower e m s id cond v with
      | ((m, s), .ok ()) => setBoundaryLoop lower e m s t
      | (x, .error err) => (x, .error err)
    else ((m, s), .error .assertion)

/-- `set_boundaries(bdict)` (l.577-596). -/
def setBoundaries (lower : String → String) (e : Env K) (m : Mdl K) (s : Option (Sol K)) (b : List (ℕ × String × K)) :
    (Mdl K × Option (Sol K)) × Except Err Unit :=
  match setBoundaryLoop lower e { m with bdict := b } s b with
  | ((m, s), .ok ()) =>
    (({ m with bUpdate := (b.filter fun x => decide (x.2.1 = "pressure")).map (·.1) }, s), .ok ())
  | x => x

/-- `set_all_boundaries(cond, v)` (l.598-614). -/
def setAllBoundaries (lower : String → String) (e : Env K) (m : Mdl K) (s : Option (Sol K)) (cond : String) (v : K) :
    (Mdl K × Option (Sol K)) × Except Err Unit :=
  e.bnd.foldl (fun acc id => match acc with
    | ((m, s), .ok ()) => setBoundary lower e m s id cond v
    | x => x) ((m, s), .ok ())

/-! ## Terms of the flow equation (fdm.py l.62-211) -/

/-- `__calc_n_term` (l.62-92). -/
def nTerm (e : Env K) (id idn : ℕ) (T : K) : Aff K :=
  Aff.smul T (((Aff.p idn).sub (Aff.p id)).sub (Aff.c (e.grav * (e.z idn - e.z id))))

/-- `__calc_b_term` (l.95-142); `x` is the pressure symbol or a number. -/
def bTerm (lower : String → String) (e : Env K) (b : List (ℕ × String × K)) (id idb : ℕ) (x : Aff K) (T : K) : Aff K :=
  match dictGet b idb with
  | some (cond, v) =>
    if lower cond ∈ ["pressure", "press", "p"] then
      Aff.smul (T * 2) (((Aff.c v).sub x).sub (Aff.c (e.grav * (e.z idb - e.z id))))
    else Aff.c v
  | none => Aff.c 0

/-- `__calc_w_term` (l.144-176). -/
def wTerm (e : Env K) (w : Well K) (x : Aff K) : Except Err (Aff K) :=
  match w.q, w.con with
  | some q, some .q => .ok (Aff.c q)
  | _, _ => do
    let G ← need w.G
    let pwf ← need w.pwf
    pure (Aff.smul (-G / (e.B * e.mu)) (x.sub (Aff.c pwf)))

/-- `__calc_a_term` (l.178-211) with the pressure symbol. A NaN previous pressure gives a NaN equation; it is refused here. -/
def aTerm (e : Env K) (s : Sol K) (id : ℕ) : Except Err (Aff K) :=
  if e.comp then
    match rowAt s.press s.tstep none id with
    | some p => .ok (Aff.smul (e.rhs id) ((Aff.p id).sub (Aff.c p)))
    | none => .error .nan
  else .ok (Aff.c 0)

/-! ## Symbolic assembly (fdm.py l.213-423) -/

section
variable [DecidableEq K]

/-- The terms of a cell that is not yet in `cells_terms` (l.259-293). The order of boundary neighbours goes through a Python
set; the model uses the neighbour order. -/
def buildTerms (lower : String → String) (e : Env K) (m : Mdl K) (s : Sol K) (id : ℕ) : Except Err (Terms K) := do
  if id ∉ e.ids then throw .assertion
  let ns ← e.nbrs id
  let bs ← e.bnds id
  let T ← e.transC id true
  let fn ← ns.all.mapM fun idn => do
    let t ← need (dictGet T idn)
    pure (nTerm e id idn t)
  let fb ← bs.all.mapM fun idb => do
    let t ← need (dictGet T idb)
    pure (bTerm lower e m.bdict id idb (Aff.p id) t)
  let fw ← match dictGet m.wells id with
    | some w => do
      let t ← wTerm e w (Aff.p id)
      pure [t]
    | none => pure []
  let a ← aTerm e s id
  pure ⟨fn ++ fb ++ fw, a⟩

/-- The well part of the update of known terms (l.299-307): the last flow term is replaced. -/
def refreshWell (e : Env K) (m : Mdl K) (id : ℕ) (t : Terms K) : Except Err (Terms K) :=
  match dictGet m.wells id with
  | some w =>
    if w.con = some .pwf then do
      let x ← wTerm e w (Aff.p id)
      pure { t with f := t.f.dropLast ++ [x] }
    else .ok t
  | none => .ok t

/-- The update of known terms (l.298-310). -/
def refreshTerms (e : Env K) (m : Mdl K) (s : Sol K) (id : ℕ) (t : Terms K) : Except Err (Terms K) := do
  let t ← refreshWell e m id t
  if e.comp then
    let a ← aTerm e s id
    pure { t with a := a }
  else pure t

/-- `sym.Eq(lhs, rhs)`, `__simplify_eq`, and reading off the coefficients (l.213-219, 312-314). Without numbers on either side
the equation is left as it is; otherwise sympy collects the symbols on the left and the number on the right and divides by some
number (`scale`, a gcd of the coefficients). If the numbers cancel sympy leaves symbols on the right, which cannot be stored in
the right-hand side (`TypeError`); so is a symbol on the right of an equation that is not simplified. An equation without symbols
is evaluated to a truth value, which has no `lhs` (`AttributeError`). -/
def eqRow (scale : (ℕ → K) → K → K) (ids : List ℕ) (l r : Aff K) : Except Err ((ℕ → K) × K) :=
  if ids.all fun id => decide (l.coef id = r.coef id) then .error .attribute
  else if l.const = 0 ∧ r.const = 0 then
    if ids.all fun id => decide (r.coef id = 0) then .ok (l.coef, 0) else .error .type
  else
    let m := fun id => l.coef id - r.coef id
    let v := l.const - r.const
    if v = 0 then .error .type else .ok (fun id => m id / scale m v, -v / scale m v)

/-- The terms `get_cell_eq(id)` works with (l.259-310). -/
def cellTerms (lower : String → String) (e : Env K) (m : Mdl K) (s : Sol K) (id : ℕ) : Except Err (Terms K) :=
  match dictGet m.terms id with
  | none => buildTerms lower e m s id
  | some t => refreshTerms e m s id t

/-- `get_cell_eq(id)` (l.221-319): the equation and the model with the terms remembered. -/
def cellEq (lower : String → String) (scale : (ℕ → K) → K → K) (e : Env K) (m : Mdl K) (s : Sol K) (id : ℕ) :
    Except Err (Mdl K × (ℕ → K) × K) := do
  let t ← cellTerms lower e m s id
  let row ← eqRow scale e.ids (Aff.sum t.f) t.a
  pure ({ m with terms := dictSet m.terms id t }, row)

/-- `get_cells_eq(False)` (l.336-341): all equations in order. -/
def cellsEq (lower : String → String) (scale : (ℕ → K) → K → K) (e : Env K) (m : Mdl K) (s : Sol K) :
    Except Err (Mdl K × List (ℕ × (ℕ → K) × K)) :=
  e.ids.foldlM (fun acc id => do
    let (m, row) ← cellEq lower scale e acc.1 s id
    pure (m, acc.2 ++ [(id, row)])) (m, [])

/-- `__update_matrices_symb(id)` (l.348-372): the coefficients that are present are stored in the row, the others keep what was
there. -/
def writeRow (ids : List ℕ) (M : (ℕ → ℕ → K) × (ℕ → K)) (id : ℕ) (row : (ℕ → K) × K) : (ℕ → ℕ → K) × (ℕ → K) :=
  let i := ids.idxOf id
  (fun a b => if a = i then (match ids[b]? with | some j => if row.1 j = 0 then M.1 a b else row.1 j | none => M.1 a b)
     else M.1 a b,
   fun a => if a = i then row.2 else M.2 a)

/-- The attributes `A`, `d` as `get_matrices_symb` starts with them (l.395-405): zeros at step 0 and when there are none yet. -/
def symbStart (s : Sol K) : (ℕ → ℕ → K) × (ℕ → K) :=
  match s.sM with
  | some M => if s.tstep = 0 then (fun _ _ => 0, fun _ => 0) else M
  | none => (fun _ _ => 0, fun _ => 0)

/-- `get_matrices_symb(False)` (l.374-423). -/
def matricesSymb (lower : String → String) (scale : (ℕ → K) → K → K) (e : Env K) (m : Mdl K) (s : Sol K) :
    Except Err (Mdl K × Sol K × (ℕ → ℕ → K) × (ℕ → K)) := do
  let (m, eqs) ← cellsEq lower scale e m s
  let M := eqs.foldl (fun M x => writeRow e.ids M x.1 x.2) (symbStart s)
  pure (m, { s with sM := some M }, M.1, M.2)

/-! ## Vectorised assembly (fdm.py l.429-593) -/

/-- `__init_A` (l.429-461). -/
def initA (e : Env K) : ℕ → ℕ → K := fun i j =>
  if i = j then -((List.range e.n).map (e.transV i)).sum - e.rhs (e.ids.getD i 0) else e.transV i j

/-- `A[i, j] += v`. (fdm.py l.549, 572-574) -/
def addEntry (A : ℕ → ℕ → K) (i j : ℕ) (v : K) : ℕ → ℕ → K := fun a b => if a = i ∧ b = j then A a b + v else A a b

/-- `d[i] -= v`. (fdm.py l.557, 570, 584-586) -/
def subEntry (d : ℕ → K) (i : ℕ) (v : K) : ℕ → K := fun a => if a = i then d a - v else d a

/-- One pressure boundary at the first assembly (l.542-549): `v0, v1 = …values()` needs two values. -/
def vBound (lower : String → String) (e : Env K) (m : Mdl K) (acc : (ℕ → ℕ → K) × List (ℕ × K × K × ℕ)) (idb : ℕ) :
    Except Err ((ℕ → ℕ → K) × List (ℕ × K × K × ℕ)) := do
  match ← e.transC idb false with
  | [(id, T)] =>
    match (bTerm lower e m.bdict id idb (Aff.p id) T).values id with
    | [v0, v1] => do
      let i ← cellIndex e.ids id
      pure (addEntry acc.1 i i v1, dictSet acc.2 idb (v0, v1, id))
    | _ => .error .value
  | _ => .error .value

/-- `__init_d` (l.463-500); a NaN previous pressure is refused (the dense solver refuses it, the sparse one returns NaN). -/
def initD (e : Env K) (s : Sol K) : Except Err (ℕ → K) :=
  if e.comp then
    if e.ids.all fun id => (rowAt s.press s.tstep none id).isSome then
      .ok fun i => -(e.rhs (e.ids.getD i 0)) * ((rowAt s.press s.tstep none (e.ids.getD i 0)).getD 0)
    else .error .nan
  else .ok fun _ => 0

/-- What the loop over wells changes. (fdm.py l.552-578) -/
structure VAcc (K : Type) where
  A : ℕ → ℕ → K
  d : ℕ → K
  resolve : ℕ → Bool
  updateZ : Bool

/-- One well (l.553-577). -/
def vWell (e : Env K) (s : Sol K) (acc : VAcc K) (x : ℕ × Well K) : Except Err (VAcc K) :=
  let (id, w) := x
  match w.con with
  | some .q => do
    let t ← wTerm e w (Aff.c ((rowAt s.press s.tstep none id).getD 0))
    let i ← cellIndex e.ids id
    pure { acc with d := subEntry acc.d i t.const, updateZ := true }
  | some .pwf => do
    let t ← wTerm e w (Aff.p id)
    let (v0, v1) ← match t.values id with
      | [v0] => pure (v0, 0)
      | [v0, v1] => pure (v0, v1)
      | _ => throw .value
    let i ← cellIndex e.ids id
    pure { acc with
      d := subEntry acc.d i v0
      A := if acc.resolve id then acc.A else addEntry acc.A i i v1
      resolve := Function.update acc.resolve id true }
  | none => pure acc

/-- One boundary condition on the right-hand side (l.579-588). -/
def vBd (e : Env K) (s : Sol K) (bV : List (ℕ × K × K × ℕ)) (d : ℕ → K) (x : ℕ × String × K) : Except Err (ℕ → K) := do
  let ns ← e.nbrs x.1
  match ns.all with
  | [] => pure d
  | id :: _ => do
    let i ← cellIndex e.ids id
    if x.2.1 = "pressure" then do
      let v ← need (dictGet bV x.1)
      pure (subEntry d i v.1)
    else pure (subEntry d i (rowAt s.rates s.tstep 0 x.1))

/-- `__update_z` (l.502-519). -/
def updateZ (e : Env K) (d : ℕ → K) : ℕ → K :=
  let z := fun i => e.z (e.ids.getD i 0)
  if (List.range e.n).all fun i => decide (z i = z 0) then d
  else fun i =>
    let dl := if i + 1 < e.n then e.grav * (z (i + 1) - z i) else 0
    let du := if 0 < i then e.grav * (z (i - 1) - z i) else 0
    d i + (e.diag1 i * dl + e.diag1 i * du)

/-- The attributes `A_`, `bdict_v`, `resolve` as `get_matrices_vect` starts with them (l.537-549): made anew at step 0 and when
there is no `A_` yet. -/
def vReady (lower : String → String) (e : Env K) (m : Mdl K) (s : Sol K) :
    Except Err ((ℕ → ℕ → K) × List (ℕ × K × K × ℕ) × (ℕ → Bool)) :=
  let fresh := do
    let (A, bV) ← m.bUpdate.foldlM (vBound lower e m) (initA e, [])
    pure (A, bV, fun _ => false)
  match s.vA with
  | some A => if s.tstep = 0 then fresh else .ok (A, s.bV, s.resolve)
  | none => fresh

/-- `get_matrices_vect` (l.521-593). -/
def matricesVect (lower : String → String) (e : Env K) (m : Mdl K) (s : Sol K) :
    Except Err (Sol K × (ℕ → ℕ → K) × (ℕ → K)) := do
  let (A, bV, res) ← vReady lower e m s
  let d ← initD e s
  let acc ← m.wells.foldlM (vWell e s) ⟨A, d, res, false⟩
  let d ← m.bdict.foldlM (vBd e s bV) acc.d
  let d := if acc.updateZ then updateZ e d else d
  pure ({ s with vA := some acc.A, bV := bV, resolve := acc.resolve }, acc.A, d)

/-! ## Solving (fdm.py l.599-856) -/

/-- `pwf_est` (l.635-643): the bottom-hole pressure the target rate needs, or the present one. -/
def estimate (e : Env K) (p : K) (w : Well K) : Except Err K :=
  match w.qsp with
  | some qs => do
    let G ← need w.G
    pure (p + qs * e.B * e.mu / G)
  | none => need w.pwf

/-- Whether the loop stops for a new solve (l.648-652). -/
def wantsAgain [LinearOrder K] (est sp : K) (w : Well K) : Except Err Bool :=
  if est < sp then do
    let q ← need w.q
    let qs ← need w.qsp
    pure (decide (q = qs))
  else .ok false

/-- One turn of the loop of `__update_wells` (l.634-664) with the new cell pressure `p`: the well, the recorded rate, the
recorded bottom-hole pressure and whether the step must be solved again. -/
def updateWell [LinearOrder K] (e : Env K) (p : K) (w : Well K) : Except Err (Well K × K × K × Bool) := do
  let est ← estimate e p w
  let sp ← need w.pwfsp
  if est > sp then do
    let w := { w with con := some .q, pwf := some est }
    let t ← wTerm e w (Aff.c p)
    pure ({ w with q := some t.const }, t.const, est, false)
  else do
    let again ← wantsAgain est sp w
    let w := { w with con := some .pwf, pwf := some sp }
    let t ← wTerm e w (Aff.c p)
    pure ({ w with q := some t.const }, t.const, sp, again)

/-- The loop over wells (l.632-669) on the new rows: changed wells, changed rates and the recorded bottom-hole pressures, or a
stop at the first well that asks for a new solve. -/
def updateWells [LinearOrder K] (e : Env K) (p : ℕ → Option K) :
    List (ℕ × Well K) → (ℕ → K) → Except Err (List (ℕ × Well K) × (ℕ → K) × List (ℕ × K) × Bool)
  | [], r => .ok ([], r, [], false)
  | (id, w) :: t, r => do
    let (w, q, pwf, again) ← updateWell e ((p id).getD 0) w
    let r := Function.update r id q
    if again then pure ((id, w) :: t, r, [], true)
    else do
      let (t, r, ps, again) ← updateWells e p t r
      pure ((id, w) :: t, r, (id, pwf) :: ps, again)

/-- `__update_boundaries` (l.671-676) on the new rows. -/
def updateBounds (lower : String → String) (e : Env K) (m : Mdl K) (p : ℕ → Option K) (r : ℕ → K) : Except Err (ℕ → K) :=
  m.bUpdate.foldlM (fun r idb => do
    match ← e.transC idb false with
    | [(id, T)] => pure (Function.update r idb (bTerm lower e m.bdict id idb (Aff.c ((p id).getD 0)) T).const)
    | _ => .error .value) r

/-- A linear solver: size, matrix, right-hand side. (called at fdm.py l.743-755) -/
abbrev LinSolver (K : Type) := ℕ → (ℕ → ℕ → K) → (ℕ → K) → Except Err (ℕ → K)

/-- What is fixed during a simulation: environment, `str.lower`, sympy's scaling and the linear solver. (fdm.py l.690-782) -/
structure Ctx (K : Type) where
  e : Env K
  lower : String → String
  scale : (ℕ → K) → K → K
  lin : LinSolver K

/-- Assembly by the chosen path (l.733-742), without `print_arrays`. -/
def assemble (c : Ctx K) (vect : Bool) (m : Mdl K) (s : Sol K) : Except Err (Mdl K × Sol K × (ℕ → ℕ → K) × (ℕ → K)) :=
  if vect then do
    let (s, A, d) ← matricesVect c.lower c.e m s
    pure (m, s, A, d)
  else matricesSymb c.lower c.scale c.e m s

/-- The new row: the last row with the interior entries replaced (l.763-764). -/
def newRow (ids : List ℕ) (last : ℕ → Option K) (x : ℕ → K) : ℕ → Option K :=
  fun id => if id ∈ ids then some (x (ids.idxOf id)) else last id

/-- One attempt at a step with `update=True` (l.733-772): assemble, solve, append the rows, update boundaries and wells. The
flag says that the step has to be repeated; then the bottom-hole pressures are not recorded. -/
def attempt [LinearOrder K] (c : Ctx K) (vect : Bool) (m : Mdl K) (s : Sol K) : Except Err (Mdl K × Sol K × Bool) := do
  let (m, s, A, d) ← assemble c vect m s
  let x ← c.lin c.e.n A d
  let p := newRow c.e.ids (lastRow s.press none) x
  let r ← updateBounds c.lower c.e m p (lastRow s.rates 0)
  let (ws, r, ps, again) ← updateWells c.e p m.wells r
  let wp := if again then m.wPress else ps.foldl (fun wp x => appendAt wp x.1 (some x.2)) m.wPress
  pure ({ m with wells := ws, wPress := wp },
    { s with tstep := s.tstep + 1, press := s.press ++ [p], rates := s.rates ++ [r], As := s.As ++ [A], ds := s.ds ++ [d] },
    again)

/-- The rows of the step are taken back before it is repeated (l.770-772). -/
def Sol.back (s : Sol K) : Sol K :=
  { s with rates := s.rates.take s.tstep, press := s.press.take s.tstep, tstep := s.tstep - 1 }

/-- `solve(vectorize=vect, update=…)` (l.690-782). Python's recursion limit is the first argument. An exception leaves model and
solution as they were (in the code the assembled matrices, and after a repetition the wells, may have changed). -/
def solve [LinearOrder K] (c : Ctx K) : ℕ → Bool → Bool → Mdl K → Sol K → Except Err (Mdl K × Sol K)
  | 0, _, _, _, _ => .error .recursion
  | fuel + 1, vect, update, m, s =>
    if update then do
      let (m, s, again) ← attempt c vect m s
      if again then
        solve c fuel vect true m s.back
      else pure (m, s)
    else do
      let (m, s, A, d) ← assemble c vect m s
      let _ ← c.lin c.e.n A d
      pure (m, s)

/-- The loop of `run` (l.835-844). -/
def runLoop [LinearOrder K] (c : Ctx K) (fuel : ℕ) (vect : Bool) : ℕ → Mdl K → Sol K → (Mdl K × Sol K) × Except Err Unit
  | 0, m, s => ((m, s), .ok ())
  | n + 1, m, s => match solve c fuel vect true m s with
    | .error x => ((m, s), .error x)
    | .ok (m, s) => runLoop c fuel vect n m s

/-- `run(nsteps, vectorize=vect)` (l.784-856); `elapsed` is the measured wall-clock time. -/
def run [LinearOrder K] (c : Ctx K) (fuel : ℕ) (vect : Bool) (nsteps : ℕ) (elapsed : K) (m : Mdl K) (s : Sol K) :
    (Mdl K × Sol K) × Except Err Unit :=
  match runLoop c fuel vect nsteps m { s with nsteps := s.nsteps + nsteps } with
  | ((m, s), .ok ()) => ((m, { s with ctime := s.ctime + elapsed }), .ok ())
  | x => x

/-! ## Material balance (fdm.py l.862-912) -/

/-- Sum of a row over all cells. (fdm.py l.877, 888) -/
def rowSum (e : Env K) (r : ℕ → K) : K := ((List.range e.nAll).map r).sum

/-- `sum(RHS * (pressures[t] - pressures[t']))` over the interior. (fdm.py l.881-888) -/
def stored (e : Env K) (s : Sol K) (t t' : ℕ) : K :=
  (e.ids.map fun id => e.rhs id * ((rowAt s.press t none id).getD 0 - (rowAt s.press t' none id).getD 0)).sum

/-- `check_MB` (l.862-912): `error` and, for compressible models, `cumulative_error`; `none` is a division by zero. -/
def checkMB [LinearOrder K] (e : Env K) (dt : K) (s : Sol K) : Option K × Option K :=
  if e.comp then
    let t := rowSum e (rowAt s.rates s.tstep 0)
    let tt := dt * s.tstep * ((s.rates.map (rowSum e)).sum)
    (if t = 0 then none else some |stored e s s.tstep (s.tstep - 1) / t - 1|,
     if tt = 0 then none else some
      ((e.ids.map fun id => e.rhs id * dt *
        ((rowAt s.press s.tstep none id).getD 0 - (rowAt s.press 0 none id).getD 0)).sum / tt))
  else (some (rowSum e (rowAt s.rates s.tstep 0)), none)
end

/-! ## The environment of a grid -/

/-- `__calc_RHS` (black_oil.py l.621-632). -/
def calcRHS (comp : Bool) (V phi : List K) (ct vconv B dt : K) : ℕ → K := fun id =>
  if comp then V.getD id 0 * phi.getD id 0 * ct / (vconv * B * dt) else 0

/-- What a model built from a grid, its rock and a fluid hands to the solution. The well factor is given as a function since it
needs logarithms (`Verif/Well`). `get_cells_trans_diag(True, 1)` (black_oil.py l.345-356) is only used on 1D grids along x, the
model takes the first diagonal of the padded grid. -/
def Env.ofGrid [DecidableEq K] (g : Dims) (q : Geom K) (r : Rock K) (β mu B grav : K) (z : List K) (comp : Bool) (rhs : ℕ → K)
    (wellReq : ℕ → Except Err K) (wellG : ℕ → K → K → Option K → Except Err K) : Except Err (Env K) := do
  let ids ← g.getCellsId false
  let bnd ← g.getBoundariesId
  let T ← cellsTransVect g q r β mu B
  let dg ← RF.diag1 g q r β true
  pure { ids := ids, bnd := bnd, nAll := g.getN true, transV := T
         transC := fun id b => cellTrans g q r β mu B (id : ℤ) b
         nbrs := fun id => g.neighborsId (id : ℤ) false
         bnds := fun id => g.cellBoundariesId (id : ℤ)
         diag1 := fun i => dg.getD (ids.getD i 0) 0 / (mu * B)
         size := fun a id => (q.d a).getD id 0
         z := fun id => z.getD id 0
         grav := grav, mu := mu, B := B, comp := comp, rhs := rhs, wellReq := wellReq, wellG := wellG }
end
end RF.Fdm
