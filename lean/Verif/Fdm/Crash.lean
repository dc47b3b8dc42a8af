import Verif.Fdm.Fail
/-!
# Calls that are interrupted

`solve` and `run`, statement by statement: the list of all states of model and solution between two statements that change them. A call that is interrupted
(Ctrl-C, a signal handler that raises, an exception of a library) leaves one of these states behind. The threads of `threading=True` are left out, and so are
half-done library calls: one assignment to an array is one statement.
-/
namespace RF.Fdm
open RF RF.Dims

variable {K : Type} [Field K] [LinearOrder K]

/-- Model and solution. (fdm.py l.690-782) -/
abbrev St (K : Type) := Mdl K × Sol K

/-- Where in a call of `solve` an interruption hits. (fdm.py l.521-782) -/
inductive Spot where
  /-- before the assembly, during it (except as below), or in the linear solver (l.733-757) -/
  | asm
  /-- while the vectorised assembler makes its matrix anew (l.540-549) -/
  | reset
  /-- between adding a well to the matrix and remembering that it was added (l.572-575) -/
  | added
  /-- after `tstep` was raised, before both tables have their new row (l.760-763) -/
  | counted
  /-- both tables have their new row, boundary rates and wells are being updated (l.764-772, 634-661) -/
  | stored
  /-- bottom-hole pressures are being appended (l.666-667) -/
  | listed
  /-- while the rows of a step that has to be repeated are removed (l.773-775) -/
  | undo
  deriving DecidableEq, Repr

/-- The states passed and how the call ends. (fdm.py l.690-782) -/
structure Trace (σ α : Type) where
  seen : List (Spot × σ)
  out : Except Err α

/-! ### vectorised assembly -/

/-- The pressure boundaries at the first assembly (l.543-549): `bdict_v[id_b]` is stored before the matrix is changed. (fdm.py) If the cell is not in the listing
the code stores `bdict_v[id_b]` before it raises; here it raises first. -/
def vBoundsT (lower : String → String) (e : Env K) (m : Mdl K) :
    List ℕ → (ℕ → ℕ → K) × List (ℕ × K × K × ℕ) → List ((ℕ → ℕ → K) × List (ℕ × K × K × ℕ)) × Except Err ((ℕ → ℕ → K) × List (ℕ × K × K × ℕ))
  | [], acc => ([], .ok acc)
  | b :: l, acc => match vBound lower e m acc b with
    | .error x => ([], .error x)
    | .ok acc' => ((acc.1, acc'.2) :: acc' :: (vBoundsT lower e m l acc').1, (vBoundsT lower e m l acc').2)

/-- `A_`, `bdict_v`, `resolve` are made anew at step 0 and when there is no `A_` (fdm.py l.538-549): `resolve` is emptied, `A_` is the table of
transmissibilities, then gets its diagonal (l.453-458), then `bdict_v` is emptied, then the pressure boundaries follow. -/
def vReadyT (lower : String → String) (e : Env K) (m : Mdl K) (s : Sol K) : Trace (Sol K) ((ℕ → ℕ → K) × List (ℕ × K × K × ℕ) × (ℕ → Bool)) :=
  let none' : ℕ → Bool := fun _ => false
  let b := vBoundsT lower e m m.bUpdate (initA e, [])
  let fresh : Trace (Sol K) ((ℕ → ℕ → K) × List (ℕ × K × K × ℕ) × (ℕ → Bool)) :=
    ⟨[(.reset, { s with resolve := none' }), (.reset, { s with resolve := none', vA := some e.transV }), (.reset, { s with resolve := none', vA := some (initA e) }),
      (.reset, { s with resolve := none', vA := some (initA e), bV := [] })] ++ b.1.map fun x => (.reset, { s with resolve := none', vA := some x.1, bV := x.2 }),
     match b.2 with | .ok x => .ok (x.1, x.2, none') | .error x => .error x⟩
  match s.vA with
  | some A => if s.tstep = 0 then fresh else ⟨[], .ok (A, s.bV, s.resolve)⟩
  | none => fresh

/-- The loop over wells (fdm.py l.553-577): matrix and marks after each statement. -/
def vWellsT (e : Env K) (s : Sol K) : List (ℕ × Well K) → VAcc K → List (Spot × (ℕ → ℕ → K) × (ℕ → Bool)) × Except Err (VAcc K)
  | [], acc => ([], .ok acc)
  | x :: l, acc => match vWell e s acc x with
    | .error y => ([], .error y)
    | .ok acc' =>
      ((if x.2.con = some .pwf ∧ acc.resolve x.1 = false then [(.added, acc'.A, acc.resolve)] else []) ++ (.asm, acc'.A, acc'.resolve) :: (vWellsT e s l acc').1,
        (vWellsT e s l acc').2)

/-- `get_matrices_vect` (fdm.py l.521-593); the right-hand side is made anew in every call. -/
def matricesVectT (lower : String → String) (e : Env K) (m : Mdl K) (s : Sol K) : Trace (Sol K) (Sol K × (ℕ → ℕ → K) × (ℕ → K)) :=
  match (vReadyT lower e m s).out with
  | .error x => ⟨(vReadyT lower e m s).seen, .error x⟩
  | .ok (A, bV, res) =>
    let s0 : Sol K := { s with vA := some A, bV := bV, resolve := res }
    match initD e s with
    | .error x => ⟨(vReadyT lower e m s).seen ++ [(.asm, s0)], .error x⟩
    | .ok d =>
      let w := vWellsT e s m.wells ⟨A, d, res, false⟩
      let pts := (vReadyT lower e m s).seen ++ (.asm, s0) :: w.1.map fun y => (y.1, { s0 with vA := some y.2.1, resolve := y.2.2 })
      match w.2 with
      | .error x => ⟨pts, .error x⟩
      | .ok acc => match m.bdict.foldlM (vBd e s bV) acc.d with
        | .error x => ⟨pts, .error x⟩
        | .ok d => ⟨pts, .ok ({ s0 with vA := some acc.A, resolve := acc.resolve }, acc.A, if acc.updateZ then updateZ e d else d)⟩

/-! ### symbolic assembly -/

/-- The loop over equations (fdm.py l.336-341): new terms are remembered at once (l.294), known terms are changed in place, the flow terms before the accumulation
term (l.308-310). -/
def eqsT (lower : String → String) (scale : (ℕ → K) → K → K) (e : Env K) (s : Sol K) :
    List ℕ → Mdl K × List (ℕ × (ℕ → K) × K) → List (Mdl K) × Except Err (Mdl K × List (ℕ × (ℕ → K) × K))
  | [], acc => ([], .ok acc)
  | id :: l, acc => match cellTerms lower e acc.1 s id with
    | .error x => ([], .error x)
    | .ok t =>
      let half := match dictGet acc.1.terms id with
        | some t0 => [{ acc.1 with terms := dictSet acc.1.terms id { t0 with f := t.f } }]
        | none => []
      let m : Mdl K := { acc.1 with terms := dictSet acc.1.terms id t }
      match eqRow scale e.ids (Aff.sum t.f) t.a with
      | .error x => (half ++ [m], .error x)
      | .ok row => (half ++ m :: (eqsT lower scale e s l (m, acc.2 ++ [(id, row)])).1, (eqsT lower scale e s l (m, acc.2 ++ [(id, row)])).2)

/-- The matrices are made anew (fdm.py l.395-405): first `d`, then `A`. As long as one of them is missing (`none`) both are made anew. -/
def symbStartT (s : Sol K) : List (Option ((ℕ → ℕ → K) × (ℕ → K))) :=
  let anew : List (Option ((ℕ → ℕ → K) × (ℕ → K))) := [s.sM.map fun M => (M.1, fun _ => 0), some (fun _ _ => 0, fun _ => 0)]
  match s.sM with
  | some _ => if s.tstep = 0 then anew else []
  | none => anew

/-- The rows are written one after the other, the right-hand side before the matrix. (fdm.py l.366-367, 415-416) -/
def rowsT (ids : List ℕ) : List (ℕ × (ℕ → K) × K) → (ℕ → ℕ → K) × (ℕ → K) → List ((ℕ → ℕ → K) × (ℕ → K))
  | [], _ => []
  | x :: l, M => (M.1, fun a => if a = ids.idxOf x.1 then x.2.2 else M.2 a) :: writeRow ids M x.1 x.2 :: rowsT ids l (writeRow ids M x.1 x.2)

/-- `get_matrices_symb(False)` (fdm.py l.374-423). -/
def matricesSymbT (lower : String → String) (scale : (ℕ → K) → K → K) (e : Env K) (m : Mdl K) (s : Sol K) :
    Trace (St K) (Mdl K × Sol K × (ℕ → ℕ → K) × (ℕ → K)) :=
  let q := eqsT lower scale e s e.ids (m, [])
  match q.2 with
  | .error x => ⟨q.1.map fun m => (.asm, m, s), .error x⟩
  | .ok (m1, eqs) =>
    let M := eqs.foldl (fun M x => writeRow e.ids M x.1 x.2) (symbStart s)
    ⟨(q.1.map fun m => (.asm, m, s)) ++ ((symbStartT s).map fun M => (.asm, m1, { s with sM := M })) ++
      ((rowsT e.ids eqs (symbStart s)).map fun M => (.asm, m1, { s with sM := some M })), .ok (m1, { s with sM := some M }, M.1, M.2)⟩

/-- Assembly by the chosen path. (fdm.py l.733-742) -/
def assembleT (c : Ctx K) (vect : Bool) (m : Mdl K) (s : Sol K) : Trace (St K) (Mdl K × Sol K × (ℕ → ℕ → K) × (ℕ → K)) :=
  if vect then
    ⟨(matricesVectT c.lower c.e m s).seen.map fun x => (x.1, m, x.2), match (matricesVectT c.lower c.e m s).out with | .ok (s, A, d) => .ok (m, s, A, d) | .error x => .error x⟩
  else matricesSymbT c.lower c.scale c.e m s

/-! ### the updates -/

/-- `__update_boundaries` (fdm.py l.671-676): the new row of rates after each boundary. -/
def boundsT (lower : String → String) (e : Env K) (m : Mdl K) (p : ℕ → Option K) : List ℕ → (ℕ → K) → List (ℕ → K) × Except Err (ℕ → K)
  | [], r => ([], .ok r)
  | idb :: l, r => match e.transC idb false with
    | .ok [(id, T)] =>
      let r := Function.update r idb (bTerm lower e m.bdict id idb (Aff.c ((p id).getD 0)) T).const
      (r :: (boundsT lower e m p l r).1, (boundsT lower e m p l r).2)
    | .ok _ => ([], .error .value)
    | .error x => ([], .error x)

/-- One well (fdm.py l.645-659): the constraint, the bottom-hole pressure and the rate are stored one after the other. -/
def wellT (e : Env K) (p : K) (w : Well K) : List (Well K) × Except Err (Well K × K × K × Bool) :=
  match estimate e p w with
  | .error x => ([], .error x)
  | .ok est => match need w.pwfsp with
    | .error x => ([], .error x)
    | .ok sp =>
      let rest := fun (con : Con) (b : K) (again : Bool) =>
        match wTerm e { w with con := some con, pwf := some b } (Aff.c p) with
        | .error x => ([{ w with con := some con }, { w with con := some con, pwf := some b }], .error x)
        | .ok t => ([{ w with con := some con }, { w with con := some con, pwf := some b }, { w with con := some con, pwf := some b, q := some t.const }],
            .ok ({ w with con := some con, pwf := some b, q := some t.const }, t.const, b, again))
      if est > sp then rest .q est false
      else match wantsAgain est sp w with
        | .error x => ([], .error x)
        | .ok again => rest .pwf sp again

/-- The loop of `__update_wells` (fdm.py l.634-664): wells and row of rates after each statement. The first argument are the wells already done. -/
def wellsT (e : Env K) (p : ℕ → Option K) :
    List (ℕ × Well K) → List (ℕ × Well K) → (ℕ → K) → List (List (ℕ × Well K) × (ℕ → K)) × Except Err (List (ℕ × Well K) × (ℕ → K) × List (ℕ × K) × Bool)
  | done, [], r => ([], .ok (done, r, [], false))
  | done, (id, w) :: t, r =>
    let x := wellT e ((p id).getD 0) w
    let pts := x.1.map fun w => (done ++ (id, w) :: t, r)
    match x.2 with
    | .error y => (pts, .error y)
    | .ok (w, q, b, again) =>
      let r := Function.update r id q
      if again then (pts ++ [(done ++ (id, w) :: t, r)], .ok (done ++ (id, w) :: t, r, [], true))
      else
        let y := wellsT e p (done ++ [(id, w)]) t r
        (pts ++ (done ++ (id, w) :: t, r) :: y.1, match y.2 with | .ok (ws, r, ps, again) => .ok (ws, r, (id, b) :: ps, again) | .error z => .error z)

/-- `w_pressures[id].append(…)` for one well after the other. (fdm.py l.666-667) -/
def listsT : List (ℕ × K) → List (ℕ × List (Option K)) → List (List (ℕ × List (Option K)))
  | [], _ => []
  | x :: l, d => appendAt d x.1 (some x.2) :: listsT l (appendAt d x.1 (some x.2))

/-! ### steps -/

/-- One attempt at a step (fdm.py l.733-772): `tstep` is raised, the table of pressures gets a copy of its last row, the row is filled, the table of rates gets a
copy of its last row, the system is kept, boundary rates and wells are updated. -/
def attemptT (c : Ctx K) (vect : Bool) (m : Mdl K) (s : Sol K) : Trace (St K) (Mdl K × Sol K × Bool) :=
  let a := assembleT c vect m s
  match a.out with
  | .error x => ⟨(.asm, m, s) :: a.seen, .error x⟩
  | .ok (m1, s1, A, d) => match c.lin c.e.n A d with
    | .error x => ⟨(.asm, m, s) :: a.seen ++ [(.asm, m1, s1)], .error x⟩
    | .ok x =>
      let p := newRow c.e.ids (lastRow s1.press none) x
      let r0 := lastRow s1.rates 0
      let counted : Sol K := { s1 with tstep := s1.tstep + 1, press := s1.press ++ [p] }
      let full := fun r => { counted with rates := s1.rates ++ [r], As := s1.As ++ [A], ds := s1.ds ++ [d] }
      let b := boundsT c.lower c.e m1 p m1.bUpdate r0
      let pts := (.asm, m, s) :: a.seen ++ [(.asm, m1, s1), (.counted, m1, { s1 with tstep := s1.tstep + 1 }),
        (.counted, m1, { counted with press := s1.press ++ [lastRow s1.press none] }), (.counted, m1, counted),
        (.stored, m1, { counted with rates := s1.rates ++ [r0] }), (.stored, m1, { counted with rates := s1.rates ++ [r0], As := s1.As ++ [A] }), (.stored, m1, full r0)] ++
        b.1.map fun r => (.stored, m1, full r)
      match b.2 with
      | .error x => ⟨pts, .error x⟩
      | .ok r =>
        let w := wellsT c.e p [] m1.wells r
        let pts := pts ++ w.1.map fun x => (.stored, { m1 with wells := x.1 }, full x.2)
        match w.2 with
        | .error x => ⟨pts, .error x⟩
        | .ok (ws, r, ps, again) =>
          if again then ⟨pts, .ok ({ m1 with wells := ws }, full r, true)⟩
          else ⟨pts ++ (listsT ps m1.wPress).map fun wp => (.listed, { m1 with wells := ws, wPress := wp }, full r),
            .ok ({ m1 with wells := ws, wPress := ps.foldl (fun wp x => appendAt wp x.1 (some x.2)) m1.wPress }, full r, false)⟩

/-- `solve` with `update=True` (fdm.py l.690-782): a repeated step first loses its row of rates, then its row of pressures, then `tstep` is lowered. -/
def solveT (c : Ctx K) : ℕ → Bool → Mdl K → Sol K → Trace (St K) (St K)
  | 0, _, _, _ => ⟨[], .error .recursion⟩
  | fuel + 1, vect, m, s =>
    let a := attemptT c vect m s
    match a.out with
    | .error x => ⟨a.seen, .error x⟩
    | .ok (m1, s1, false) => ⟨a.seen, .ok (m1, s1)⟩
    | .ok (m1, s1, true) =>
      let r := solveT c fuel vect m1 s1.back
      ⟨a.seen ++ [(.undo, m1, { s1 with rates := s1.rates.take s1.tstep }),
        (.undo, m1, { s1 with rates := s1.rates.take s1.tstep, press := s1.press.take s1.tstep })] ++ r.seen, r.out⟩

/-- The loop of `run` (fdm.py l.835-844): each state comes with the number of steps that are still to be done, the one at work included. -/
def runLoopT (c : Ctx K) (fuel : ℕ) (vect : Bool) : ℕ → Mdl K → Sol K → List (ℕ × Spot × St K) × Except Err (St K)
  | 0, m, s => ([], .ok (m, s))
  | n + 1, m, s =>
    let a := solveT c fuel vect m s
    match a.out with
    | .error x => (a.seen.map fun y => (n + 1, y), .error x)
    | .ok (m1, s1) => ((a.seen.map fun y => (n + 1, y)) ++ (runLoopT c fuel vect n m1 s1).1, (runLoopT c fuel vect n m1 s1).2)

/-- The states a call `run(nsteps)` passes; `nsteps` is raised first. (fdm.py l.784-856) -/
def runT (c : Ctx K) (fuel : ℕ) (vect : Bool) (nsteps : ℕ) (m : Mdl K) (s : Sol K) : List (ℕ × Spot × St K) :=
  (nsteps, .asm, m, s) :: (runLoopT c fuel vect nsteps m { s with nsteps := s.nsteps + nsteps }).1

/-! ### tables that lack a row -/

/-- A later call of `solve` on any state, also on tables that are too short: writing to a row that is not there is an `IndexError` (fdm.py l.762, 659, 676), and so
is reading the rates of the step in `check_MB` (l.877, 888). The state at the exception is returned, too. Reads of a missing row in the assembly also raise; here
they are only noticed when the row is written. The first well's entry, changed before its rate is written, is left as it was. -/
def solveX (c : Ctx K) (fuel : ℕ) (vect checkMB : Bool) (m : Mdl K) (s : Sol K) : St K × Except Err Unit :=
  if s.press.length ≤ s.tstep ∨ s.rates.length ≤ s.tstep then
    match assemble c vect m s with
    | .error x => ((m, s), .error x)
    | .ok (m, s, A, d) => match c.lin c.e.n A d with
      | .error x => ((m, s), .error x)
      | .ok x =>
        if s.press.length ≤ s.tstep then ((m, { s with tstep := s.tstep + 1, press := s.press ++ [lastRow s.press none] }), .error .index)
        else
          ((m, { s with tstep := s.tstep + 1, press := s.press ++ [newRow c.e.ids (lastRow s.press none) x], rates := s.rates ++ [lastRow s.rates 0]
                        As := s.As ++ [A], ds := s.ds ++ [d] }), if checkMB ∨ m.bUpdate ≠ [] ∨ m.wells ≠ [] then .error .index else .ok ())
  else solveE c fuel vect true m s

end RF.Fdm
