import Verif.Fdm.Model
/-!
# Calls that fail half-way

`attempt`, `solve` and `run` of `Verif/Fdm/Model.lean` say what a call returns; an exception leaves them without a state. Here
the state at the exception is kept, too. The one thing still left out are half-finished assemblies: the attributes of the
assemblers (`A_`, `bdict_v`, `resolve`, `A`, `d`, `cells_terms`) are as before the failed assembly.
-/
namespace RF.Fdm
open RF RF.Dims

variable {K : Type} [Field K] [LinearOrder K]

/-- `__update_boundaries` (fdm.py l.671-676), with the row at the exception. -/
def updateBoundsE (lower : String → String) (e : Env K) (m : Mdl K) (p : ℕ → Option K) : List ℕ → (ℕ → K) → (ℕ → K) × Except Err Unit
  | [], r => (r, .ok ())
  | idb :: l, r => match e.transC idb false with
    | .ok [(id, T)] => updateBoundsE lower e m p l (Function.update r idb (bTerm lower e m.bdict id idb (Aff.c ((p id).getD 0)) T).const)
    | .ok _ => (r, .error .value)
    | .error x => (r, .error x)

/-- One turn of the loop of `__update_wells` (fdm.py l.634-664), with the well at the exception: the constraint and the bottom-hole pressure
are stored before the rate is computed. -/
def updateWellE (e : Env K) (p : K) (w : Well K) : Well K × Except Err (K × K × Bool) :=
  match estimate e p w with
  | .error x => (w, .error x)
  | .ok est => match need w.pwfsp with
    | .error x => (w, .error x)
    | .ok sp =>
      if est > sp then
        let w := { w with con := some .q, pwf := some est }
        match wTerm e w (Aff.c p) with
        | .error x => (w, .error x)
        | .ok t => ({ w with q := some t.const }, .ok (t.const, est, false))
      else match wantsAgain est sp w with
        | .error x => (w, .error x)
        | .ok again =>
          let w := { w with con := some .pwf, pwf := some sp }
          match wTerm e w (Aff.c p) with
          | .error x => (w, .error x)
          | .ok t => ({ w with q := some t.const }, .ok (t.const, sp, again))

/-- The loop of `__update_wells` (fdm.py l.632-664), with wells and row at the exception. -/
def updateWellsE (e : Env K) (p : ℕ → Option K) :
    List (ℕ × Well K) → (ℕ → K) → (List (ℕ × Well K) × (ℕ → K)) × Except Err (List (ℕ × K) × Bool)
  | [], r => (([], r), .ok ([], false))
  | (id, w) :: t, r => match updateWellE e ((p id).getD 0) w with
    | (w, .error x) => (((id, w) :: t, r), .error x)
    | (w, .ok (q, pwf, again)) =>
      let r := Function.update r id q
      if again then (((id, w) :: t, r), .ok ([], true))
      else match updateWellsE e p t r with
        | ((t, r), .error x) => (((id, w) :: t, r), .error x)
        | ((t, r), .ok (ps, again)) => (((id, w) :: t, r), .ok ((id, pwf) :: ps, again))

/-- One attempt (fdm.py l.733-772), with the state at the exception: once the system is solved the new rows are stored, and an exception
in the updates leaves them there. -/
def attemptE (c : Ctx K) (vect : Bool) (m : Mdl K) (s : Sol K) : (Mdl K × Sol K) × Except Err Bool :=
  match assemble c vect m s with
  | .error x => ((m, s), .error x)
  | .ok (m, s, A, d) => match c.lin c.e.n A d with
    | .error x => ((m, s), .error x)
    | .ok x =>
      let p := newRow c.e.ids (lastRow s.press none) x
      let s1 := fun r => { s with tstep := s.tstep + 1, press := s.press ++ [p], rates := s.rates ++ [r], As := s.As ++ [A], ds := s.ds ++ [d] }
      match updateBoundsE c.lower c.e m p m.bUpdate (lastRow s.rates 0) with
      | (r, .error x) => ((m, s1 r), .error x)
      | (r, .ok ()) => match updateWellsE c.e p m.wells r with
        | ((ws, r), .error x) => (({ m with wells := ws }, s1 r), .error x)
        | ((ws, r), .ok (ps, again)) =>
          (({ m with wells := ws, wPress := if again then m.wPress else ps.foldl (fun wp x => appendAt wp x.1 (some x.2)) m.wPress }, s1 r), .ok again)

/-- `solve` (fdm.py l.690-782), with the state at the exception. The first argument is what is left of Python's recursion limit. -/
def solveE (c : Ctx K) : ℕ → Bool → Bool → Mdl K → Sol K → (Mdl K × Sol K) × Except Err Unit
  | 0, _, _, m, s => ((m, s), .error .recursion)
  | fuel + 1, vect, update, m, s =>
    if update then
      match attemptE c vect m s with
      | (st, .error x) => (st, .error x)
      | ((m, s), .ok true) => solveE c fuel vect true m s.back
      | (st, .ok false) => (st, .ok ())
    else match assemble c vect m s with
      | .error x => ((m, s), .error x)
      | .ok (m, s, A, d) => match c.lin c.e.n A d with
        | .error x => ((m, s), .error x)
        | .ok _ => ((m, s), .ok ())

/-- The loop of `run` (fdm.py l.835-844), with the state at the exception. -/
def runLoopE (c : Ctx K) (fuel : ℕ) (vect : Bool) : ℕ → Mdl K → Sol K → (Mdl K × Sol K) × Except Err Unit
  | 0, m, s => ((m, s), .ok ())
  | n + 1, m, s => match solveE c fuel vect true m s with
    | (st, .error x) => (st, .error x)
    | ((m, s), .ok ()) => runLoopE c fuel vect n m s

/-- `run` (fdm.py l.784-856), with the state at the exception: `nsteps` is raised first, the clock last. -/
def runE (c : Ctx K) (fuel : ℕ) (vect : Bool) (nsteps : ℕ) (elapsed : K) (m : Mdl K) (s : Sol K) : (Mdl K × Sol K) × Except Err Unit :=
  match runLoopE c fuel vect nsteps m { s with nsteps := s.nsteps + nsteps } with
  | ((m, s), .ok ()) => ((m, { s with ctime := s.ctime + elapsed }), .ok ())
  | x => x

/-! ### Agreement with the calls that succeed -/

lemma updateBoundsE_eq (lower : String → String) (e : Env K) (m : Mdl K) (p : ℕ → Option K) (l : List ℕ) (r : ℕ → K) :
    l.foldlM (fun r idb => do
      match ← e.transC idb false with
      | [(id, T)] => pure (Function.update r idb (bTerm lower e m.bdict id idb (Aff.c ((p id).getD 0)) T).const)
      | _ => .error .value) r = match updateBoundsE lower e m p l r with | (r, .ok ()) => .ok r | (_, .error x) => .error x := by
  induction l generalizing r with
  | nil => rfl
  | cons b l ih =>
    rw [List.foldlM_cons]
    unfold updateBoundsE
    rcases h : e.transC b false with x | x
    · rfl
    · rcases x with _ | ⟨⟨id, T⟩, _ | ⟨y, x⟩⟩
      · rfl
      · exact ih _
      · rfl

lemma updateWellE_eq (e : Env K) (p : K) (w : Well K) :
    updateWell e p w = match updateWellE e p w with | (w, .ok (q, b, again)) => .ok (w, q, b, again) | (_, .error x) => .error x := by
  unfold updateWell updateWellE
  rcases estimate e p w with x | est
  · rfl
  rcases h : need w.pwfsp with x | sp
  · simp only [bind, Except.bind, h]
  simp only [bind, Except.bind, h]
  split_ifs with hgt
  · rcases wTerm e _ (Aff.c p) with x | t <;> rfl
  · rcases wantsAgain est sp w with x | again
    · rfl
    · rcases h2 : wTerm e { w with con := some .pwf, pwf := some sp } (Aff.c p) with x | t <;> simp only [h2] <;> rfl

lemma updateWellsE_eq (e : Env K) (p : ℕ → Option K) (l : List (ℕ × Well K)) (r : ℕ → K) :
    updateWells e p l r = match updateWellsE e p l r with | ((ws, r), .ok (ps, again)) => .ok (ws, r, ps, again) | (_, .error x) => .error x := by
  induction l generalizing r with
  | nil => rfl
  | cons y l ih =>
    obtain ⟨id, w⟩ := y
    unfold updateWells updateWellsE
    rw [updateWellE_eq]
    rcases updateWellE e ((p id).getD 0) w with ⟨w', x | ⟨q, b, again⟩⟩
    · rfl
    · cases again
      · simp only [bind, Except.bind, Bool.false_eq_true, if_false]
        rw [ih]
        rcases updateWellsE e p l (Function.update r id q) with ⟨⟨ws, r'⟩, x | ⟨ps, ag⟩⟩ <;> rfl
      · rfl

/-- `attempt` is what `attemptE` returns if there is no exception. -/
lemma attemptE_eq (c : Ctx K) (vect : Bool) (m : Mdl K) (s : Sol K) :
    attempt c vect m s = match attemptE c vect m s with | ((m, s), .ok again) => .ok (m, s, again) | (_, .error x) => .error x := by
  unfold attempt attemptE
  rcases assemble c vect m s with x | ⟨m1, s1, A, d⟩
  · rfl
  simp only [bind, Except.bind]
  rcases c.lin c.e.n A d with x | x
  · rfl
  simp only
  rw [show updateBounds c.lower c.e m1 (newRow c.e.ids (lastRow s1.press none) x) (lastRow s1.rates 0) = _ from updateBoundsE_eq _ _ _ _ _ _]
  rcases updateBoundsE c.lower c.e m1 (newRow c.e.ids (lastRow s1.press none) x) m1.bUpdate (lastRow s1.rates 0) with ⟨r, y | ⟨⟩⟩
  · rfl
  simp only
  rw [updateWellsE_eq]
  rcases updateWellsE c.e (newRow c.e.ids (lastRow s1.press none) x) m1.wells r with ⟨⟨ws, r'⟩, y | ⟨ps, again⟩⟩ <;> rfl

/-- `solve` is what `solveE` returns if there is no exception. -/
lemma solveE_eq (c : Ctx K) (fuel : ℕ) (vect update : Bool) (m : Mdl K) (s : Sol K) :
    solve c fuel vect update m s = match solveE c fuel vect update m s with | (st, .ok ()) => .ok st | (_, .error x) => .error x := by
  induction fuel generalizing update m s with
  | zero => rfl
  | succ n ih =>
    unfold solve solveE
    cases update
    · simp only [Bool.false_eq_true, if_false]
      rcases assemble c vect m s with x | ⟨m1, s1, A, d⟩
      · rfl
      simp only [bind, Except.bind]
      rcases c.lin c.e.n A d with x | x <;> rfl
    · simp only [if_true]
      rw [attemptE_eq]
      rcases attemptE c vect m s with ⟨⟨m1, s1⟩, x | again⟩
      · rfl
      cases again
      · rfl
      · exact ih true m1 s1.back

lemma runLoopE_eq (c : Ctx K) (fuel : ℕ) (vect : Bool) (n : ℕ) (m : Mdl K) (s : Sol K) :
    (runLoop c fuel vect n m s).2 = (runLoopE c fuel vect n m s).2 ∧
      ((runLoopE c fuel vect n m s).2 = .ok () → runLoop c fuel vect n m s = runLoopE c fuel vect n m s) := by
  induction n generalizing m s with
  | zero => exact ⟨rfl, fun _ => rfl⟩
  | succ n ih =>
    unfold runLoop runLoopE
    rw [solveE_eq]
    rcases solveE c fuel vect true m s with ⟨⟨m1, s1⟩, x | ⟨⟩⟩
    · exact ⟨rfl, fun h => by cases h⟩
    · exact ih m1 s1

/-- `run` is what `runE` returns if there is no exception, and raises the same exception otherwise. -/
lemma runE_eq (c : Ctx K) (fuel : ℕ) (vect : Bool) (n : ℕ) (el : K) (m : Mdl K) (s : Sol K) :
    (run c fuel vect n el m s).2 = (runE c fuel vect n el m s).2 ∧
      ((runE c fuel vect n el m s).2 = .ok () → run c fuel vect n el m s = runE c fuel vect n el m s) := by
  obtain ⟨h1, h2⟩ := runLoopE_eq c fuel vect n m { s with nsteps := s.nsteps + n }
  unfold run runE
  rcases hE : runLoopE c fuel vect n m { s with nsteps := s.nsteps + n } with ⟨⟨m1, s1⟩, x | ⟨⟩⟩
  · rw [hE] at h1
    rcases hL : runLoop c fuel vect n m { s with nsteps := s.nsteps + n } with ⟨⟨m2, s2⟩, y | ⟨⟩⟩
    · rw [hL] at h1; exact ⟨h1, fun h => by cases h⟩
    · rw [hL] at h1; cases h1
  · rw [hE] at h2
    rw [h2 rfl]
    exact ⟨rfl, fun _ => rfl⟩

end RF.Fdm
