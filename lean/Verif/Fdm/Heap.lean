import Verif.Fdm.PropsObj
/-!
# Well objects shared with models (black_oil.py l.483-489)

`set_well(well=o)` stores `vars(o)` itself, not a copy: the dictionary of the object *is* the well of the model from then on. Elsewhere (`Fdm/Model.lean`) wells are values. Here
they are references: dictionaries live in a heap, a model has a table from cells to places in the heap, and several models and objects may name the same place. `C84_alone_partial` shows that
the two descriptions agree as long as every object is placed once.
-/
set_option linter.unusedSectionVars false
namespace RF.Fdm
open RF RF.Dims

variable {K : Type} [Field K] [LinearOrder K]

/-! ## Model -/

/-- The wells of a model, `model.wells`: cells and the dictionaries they refer to. (black_oil.py l.489) -/
def look (h : ℕ → Well K) (refs : List (ℕ × ℕ)) : List (ℕ × Well K) := refs.map fun x => (x.1, h x.2)

/-- The loop of `__update_wells` (fdm.py l.632-669), see `updateWells`: every turn changes the dictionary its cell refers to. -/
def updateWellsH (e : Env K) (p : ℕ → Option K) : List (ℕ × ℕ) → (ℕ → Well K) → (ℕ → K) → Except Err ((ℕ → Well K) × (ℕ → K) × List (ℕ × K) × Bool)
  | [], h, r => .ok (h, r, [], false)
  | (id, o) :: t, h, r => do
    let (w, q, pwf, again) ← updateWell e ((p id).getD 0) (h o)
    let h := Function.update h o w
    let r := Function.update r id q
    if again then pure (h, r, [], true)
    else do
      let (h, r, ps, again) ← updateWellsH e p t h r
      pure (h, r, (id, pwf) :: ps, again)

/-- One attempt at a step (fdm.py l.733-772), see `attempt`. -/
def attemptH (c : Ctx K) (vect : Bool) (h : ℕ → Well K) (refs : List (ℕ × ℕ)) (m : Mdl K) (s : Sol K) : Except Err ((ℕ → Well K) × Mdl K × Sol K × Bool) := do
  let (m, s, A, d) ← assemble c vect { m with wells := look h refs } s
  let x ← c.lin c.e.n A d
  let p := newRow c.e.ids (lastRow s.press none) x
  let r ← updateBounds c.lower c.e m p (lastRow s.rates 0)
  let (h, r, ps, again) ← updateWellsH c.e p refs h r
  let wp := if again then m.wPress else ps.foldl (fun wp x => appendAt wp x.1 (some x.2)) m.wPress
  pure (h, { m with wells := look h refs, wPress := wp },
    { s with tstep := s.tstep + 1, press := s.press ++ [p], rates := s.rates ++ [r], As := s.As ++ [A], ds := s.ds ++ [d] }, again)

/-- `solve(vectorize=vect)` (fdm.py l.690-782), see `solve`. -/
def solveH (c : Ctx K) : ℕ → Bool → (ℕ → Well K) → List (ℕ × ℕ) → Mdl K → Sol K → Except Err ((ℕ → Well K) × Mdl K × Sol K)
  | 0, _, _, _, _, _ => .error .recursion
  | fuel + 1, vect, h, refs, m, s => do
    let (h, m, s, again) ← attemptH c vect h refs m s
    if again then solveH c fuel vect h refs m s.back else pure (h, m, s)

/-- A model with its references and its solution. The field `wells` of `m` is not used. (black_oil.py l.94-160) -/
structure Site (K : Type) where
  refs : List (ℕ × ℕ)
  m : Mdl K
  s : Option (Sol K)

/-- Dictionaries of wells and several models. Places from `next` on are not used yet. (black_oil.py l.94-160, 483-489) -/
structure World (K : Type) where
  heap : ℕ → Well K
  next : ℕ
  site : ℕ → Site K

/-- Model number `i` as it is now. (black_oil.py l.483-489) -/
def World.mdl (w : World K) (i : ℕ) : Mdl K := { (w.site i).m with wells := look w.heap (w.site i).refs }

/-- Setters of a well object (single_cell.py l.18-31); `set_cell_id` is left out, its attribute is not read any more once the well is placed. -/
inductive Assign (K : Type) where
  | q (v : Option K)
  | s (v : Option K)
  | r (v : Option K)
  | con (v : Option Con)

/-- The dictionary after a setter. (single_cell.py l.18-31) -/
def Assign.apply : Assign K → Well K → Well K
  | .q v, w => { w with q := v }
  | .s v, w => { w with s := v }
  | .r v, w => { w with r := v }
  | .con v, w => { w with con := v }

/-- Calls: a new object; a setter of object `o`; `set_well(well=o, cell_id=id)` of model `i`; `set_well(cell_id=id, …)`; `set_boundaries`; `compile`; `solve`.
(single_cell.py l.15-31, black_oil.py l.453-596, 687-760, fdm.py l.690) -/
inductive HEvent (K : Type) where
  | create (o : WellObj K)
  | assign (o : ℕ) (a : Assign K)
  | place (i id o : ℕ)
  | keys (i id : ℕ) (a : WellArgs K)
  | bounds (i : ℕ) (b : List (ℕ × String × K))
  | compile (i : ℕ)
  | step (i : ℕ) (vect : Bool)

/-- The dictionary of a new object. (single_cell.py l.15-42) -/
def WellObj.dict (o : WellObj K) : Well K := { q := o.q, s := o.s, r := o.r, con := o.con }

/-- One call; the user may catch its exception. `cs` has grid, fluid and solver of every model. A step that raises changes nothing (see `solve`).
(single_cell.py l.15-31, black_oil.py l.453-596, fdm.py l.690-782) -/
def World.exec (cs : ℕ → Ctx K) (fuel : ℕ) (w : World K) : HEvent K → World K × Except Err Unit
  | .create o => ({ w with heap := Function.update w.heap w.next o.dict, next := w.next + 1 }, .ok ())
  | .assign o a => ({ w with heap := Function.update w.heap o (a.apply (w.heap o)) }, .ok ())
  | .place i id o =>
    if id ∈ (cs i).e.ids then
      let x := finishWell (cs i).e (w.mdl i) (w.site i).s id (w.heap o)
      ({ w with heap := Function.update w.heap o ((dictGet x.1.wells id).getD (w.heap o))
                site := Function.update w.site i { refs := dictSet (w.site i).refs id o, m := x.1, s := (w.site i).s } }, x.2)
    else (w, .error .assertion)
  | .keys i id a =>
    if id ∈ (cs i).e.ids then
      let x := setWell (cs i).e (w.mdl i) (w.site i).s (some id) a
      let o := (dictGet (w.site i).refs id).getD w.next
      ({ heap := Function.update w.heap o ((dictGet x.1.wells id).getD (w.heap o))
         next := if (dictGet (w.site i).refs id).isSome then w.next else w.next + 1
         site := Function.update w.site i { refs := dictSet (w.site i).refs id o, m := x.1, s := (w.site i).s } }, x.2)
    else (w, .error .assertion)
  | .bounds i b =>
    let x := setBoundaries (cs i).lower (cs i).e (w.mdl i) (w.site i).s b
    ({ w with site := Function.update w.site i { refs := (w.site i).refs, m := x.1.1, s := x.1.2 } }, x.2)
  | .compile i => ({ w with site := Function.update w.site i { w.site i with s := some (Sol.init (w.mdl i)) } }, .ok ())
  | .step i vect => match (w.site i).s with
    | none => (w, .error .assertion)
    | some s => match solveH (cs i) fuel vect w.heap (w.site i).refs (w.site i).m s with
      | .error x => (w, .error x)
      | .ok (h, m, s) => ({ w with heap := h, site := Function.update w.site i { refs := (w.site i).refs, m := m, s := some s } }, .ok ())

/-- A sequence of calls. (no line of the code) -/
def World.session (cs : ℕ → Ctx K) (fuel : ℕ) (w : World K) (es : List (HEvent K)) : World K := es.foldl (fun w e => (w.exec cs fuel e).1) w

end RF.Fdm
