import Verif.Fdm.PropsSolver
import Verif.Fdm.Fail
/-!
# C73: the choice of the linear solver

`solve` and `run` take the name of an iterative solver (`isolver`; `None` means a direct solver). `Verif/Fdm/Model.lean` has one linear solver for everything; here the solver is picked as
in the code.
-/
set_option linter.unusedSectionVars false
namespace RF.Fdm
open RF RF.Dims Finset

variable {K : Type} [Field K] [LinearOrder K] [IsStrictOrderedRing K]

/-! ## The model -/

/-- The names known to `get_isolver` (solvers.py l.68-88). -/
def isolvers : List String := ["bicg", "bicgstab", "cg", "cgs", "gmres", "lgmres", "minres", "qmr", "gcrotmk", "tfqmr"]

/-- The scipy solvers: `sl.solve`, `ssl.spsolve` and the iterative ones by name; one of these that does not converge fails an assertion (fdm.py l.750). -/
structure Scipy (K : Type) where
  dense : LinSolver K
  direct : LinSolver K
  iter : String → LinSolver K

/-- The solver of one system (fdm.py l.739-758): `if self.sparse`, `if isolver` (`None` and `""` are false), `get_isolver` (solvers.py l.19-91; its cache does not matter, it only
saves a warning). -/
def pick (y : Scipy K) (sparse : Bool) (isolver : Option String) : LinSolver K := fun n A d =>
  if sparse then
    match isolver with
    | none => y.direct n A d
    | some name => if name = "" then y.direct n A d else if name ∈ isolvers then y.iter name n A d else .error .value
  else y.dense n A d

/-- `solve(vectorize=vect, isolver=…)` (fdm.py l.690-782). A repetition does not pass `isolver` on (l.773), so that it gets the default `"cgs"` (l.697). -/
def solveI (c : Ctx K) (y : Scipy K) (sparse : Bool) : ℕ → Bool → Option String → Mdl K → Sol K → Except Err (Mdl K × Sol K)
  | 0, _, _, _, _ => .error .recursion
  | fuel + 1, vect, isolver, m, s => do
    let (m, s, again) ← attempt { c with lin := pick y sparse isolver } vect m s
    if again then solveI c y sparse fuel vect (some "cgs") m s.back else pure (m, s)

/-- The loop of `run(isolver=…)` (fdm.py l.835-844), which passes `isolver` on. -/
def runLoopI (c : Ctx K) (y : Scipy K) (sparse : Bool) (fuel : ℕ) (vect : Bool) (isolver : Option String) : ℕ → Mdl K → Sol K → (Mdl K × Sol K) × Except Err Unit
  | 0, m, s => ((m, s), .ok ())
  | n + 1, m, s => match solveI c y sparse fuel vect isolver m s with
    | .error x => ((m, s), .error x)
    | .ok (m, s) => runLoopI c y sparse fuel vect isolver n m s

/-! ## Specification -/

/-- The names of iterative solvers in the documentation of `solve` and `run` (fdm.py l.714-716, 804-806). -/
def Documented (name : String) : Prop :=
  name = "bicg" ∨ name = "bicgstab" ∨ name = "cg" ∨ name = "cgs" ∨ name = "gmres" ∨ name = "lgmres" ∨ name = "minres" ∨ name = "qmr" ∨ name = "gcrotmk" ∨ name = "tfqmr"

/-- All systems of `solve` are solved by `lin`. -/
def chosen (c : Ctx K) (lin : LinSolver K) (fuel : ℕ) (vect : Bool) (m : Mdl K) (s : Sol K) : Except Err (Mdl K × Sol K) := solve { c with lin := lin } fuel vect true m s

/-- The first attempt at the step is accepted (or fails). -/
def FirstHolds (c : Ctx K) (vect : Bool) (m : Mdl K) (s : Sol K) : Prop := ∀ m' s', attempt c vect m s ≠ .ok (m', s', true)

/-- Every step of the run is accepted at the first attempt. -/
def AllFirst (c : Ctx K) (fuel : ℕ) (vect : Bool) : ℕ → Mdl K → Sol K → Prop
  | 0, _, _ => True
  | n + 1, m, s => FirstHolds c vect m s ∧ ∀ m' s', solve c fuel vect true m s = .ok (m', s') → AllFirst c fuel vect n m' s'

/-! ## Proofs -/

lemma solveI_default (c : Ctx K) (y : Scipy K) (sparse vect : Bool) {isolver : Option String} (h : pick y sparse isolver = pick y sparse (some "cgs")) (fuel : ℕ) (m : Mdl K) (s : Sol K) :
    solveI c y sparse fuel vect isolver m s = chosen c (pick y sparse isolver) fuel vect m s := by
  have key : ∀ fuel m s, solveI c y sparse fuel vect (some "cgs") m s = chosen c (pick y sparse (some "cgs")) fuel vect m s := by
    intro fuel
    induction fuel with
    | zero => intro m s; rfl
    | succ n ih =>
      intro m s
      unfold solveI chosen solve
      rw [if_pos rfl]
      refine bind_congr fun x => ?_
      dsimp only
      rw [ih]; rfl
  cases fuel with
  | zero => rfl
  | succ n =>
    rw [show solveI c y sparse (n + 1) vect isolver m s = solveI c y sparse (n + 1) vect (some "cgs") m s by unfold solveI; rw [h], key, h]

lemma pick_dense (y : Scipy K) (i : Option String) : pick y false i = y.dense := by
  funext n A d; rfl

/-- With dense arrays the choice does not matter, not even an unknown name. -/
theorem C73_dense (c : Ctx K) (y : Scipy K) (vect : Bool) (isolver : Option String) (fuel : ℕ) (m : Mdl K) (s : Sol K) :
    solveI c y false fuel vect isolver m s = chosen c y.dense fuel vect m s := by
  rw [solveI_default c y false vect (by rw [pick_dense, pick_dense]), pick_dense]

/-- **C73** (one step), partial: with sparse arrays the chosen solver is used for the step if the first attempt at it is not repeated, or if the choice is the default. Missing and false:
repeated steps (`C73_repeated`, `C73_fails`). -/
theorem C73_step_partial (c : Ctx K) (y : Scipy K) (vect : Bool) (isolver : Option String) (fuel : ℕ) (m : Mdl K) (s : Sol K)
    (h : isolver = some "cgs" ∨ FirstHolds { c with lin := pick y true isolver } vect m s) :
    solveI c y true fuel vect isolver m s = chosen c (pick y true isolver) fuel vect m s := by
  rcases h with rfl | h
  · exact solveI_default c y true vect rfl fuel m s
  · cases fuel with
    | zero => rfl
    | succ n =>
      unfold solveI chosen solve
      rw [if_pos rfl]
      rcases ha : attempt { c with lin := pick y true isolver } vect m s with x | ⟨m1, s1, again⟩
      · rfl
      · cases again
        · rfl
        · exact absurd ha (h _ _)

/-- **C73** (runs), partial. -/
theorem C73_run_partial (c : Ctx K) (y : Scipy K) (vect : Bool) (isolver : Option String) (fuel n : ℕ) (m : Mdl K) (s : Sol K)
    (h : isolver = some "cgs" ∨ AllFirst { c with lin := pick y true isolver } fuel vect n m s) :
    runLoopI c y true fuel vect isolver n m s = runLoop { c with lin := pick y true isolver } fuel vect n m s := by
  induction n generalizing m s with
  | zero => rfl
  | succ n ih =>
    unfold runLoopI runLoop
    rw [C73_step_partial c y vect isolver fuel m s (h.imp_right fun h => h.1)]
    unfold chosen
    rcases hs : solve { c with lin := pick y true isolver } fuel vect true m s with x | ⟨m1, s1⟩
    · rfl
    · exact ih m1 s1 (h.imp_right fun h => h.2 _ _ hs)

theorem C73_run_dense (c : Ctx K) (y : Scipy K) (vect : Bool) (isolver : Option String) (fuel n : ℕ) (m : Mdl K) (s : Sol K) :
    runLoopI c y false fuel vect isolver n m s = runLoop { c with lin := y.dense } fuel vect n m s := by
  induction n generalizing m s with
  | zero => rfl
  | succ n ih =>
    unfold runLoopI runLoop
    rw [C73_dense]
    unfold chosen
    rcases hs : solve { c with lin := y.dense } fuel vect true m s with x | ⟨m1, s1⟩
    · rfl
    · exact ih m1 s1

/-- A step that is repeated is solved by the default `"cgs"`, whatever was chosen. -/
theorem C73_repeated (c : Ctx K) (y : Scipy K) (vect : Bool) (isolver : Option String) (fuel : ℕ) {m m1 : Mdl K} {s s1 : Sol K}
    (h : attempt { c with lin := pick y true isolver } vect m s = .ok (m1, s1, true)) :
    solveI c y true (fuel + 1) vect isolver m s = chosen c (y.iter "cgs") fuel vect m1 s1.back := by
  have e : pick y true (some "cgs") = y.iter "cgs" := by
    funext n A d
    unfold pick
    rw [if_pos rfl]
    dsimp only
    rw [if_neg (by decide), if_pos (by decide)]
  rw [← e, ← solveI_default c y true vect rfl]
  conv_lhs => unfold solveI
  rw [h]; rfl

lemma documented_iff (name : String) : Documented name ↔ name ∈ isolvers := by
  unfold Documented isolvers
  simp only [List.mem_cons, List.not_mem_nil, or_false]

/-- Every documented name stands for the solver of this name: a step that is accepted at the first attempt is solved by it. -/
theorem C73_documented (c : Ctx K) (y : Scipy K) (vect : Bool) {name : String} (h : Documented name) (fuel : ℕ) (m : Mdl K) (s : Sol K) (hf : FirstHolds { c with lin := y.iter name } vect m s) :
    solveI c y true fuel vect (some name) m s = chosen c (y.iter name) fuel vect m s := by
  have e : pick y true (some name) = y.iter name := by
    funext n A d
    unfold pick
    rw [if_pos rfl]
    dsimp only
    rw [if_neg, if_pos ((documented_iff name).1 h)]
    rintro rfl
    unfold Documented at h
    revert h; decide
  rw [C73_step_partial _ _ _ _ _ _ _ (.inr (by rw [e]; exact hf)), e]

/-- `isolver=None` stands for the direct solver: a step that is accepted at the first attempt is solved by it. -/
theorem C73_none (c : Ctx K) (y : Scipy K) (vect : Bool) (fuel : ℕ) (m : Mdl K) (s : Sol K) (hf : FirstHolds { c with lin := y.direct } vect m s) :
    solveI c y true fuel vect none m s = chosen c y.direct fuel vect m s := C73_step_partial _ _ _ _ _ _ _ (.inr hf)

/-- An unknown name is refused with sparse arrays: the call fails, and neither pressures nor rates nor wells nor the step change. -/
theorem C73_unknown (c : Ctx K) (y : Scipy K) (vect : Bool) {name : String} (h0 : name ≠ "") (h : ¬ Documented name) (fuel : ℕ) (m : Mdl K) (s : Sol K) :
    (∃ x, solveI c y true fuel vect (some name) m s = .error x) ∧
      ∀ m' s' r, attemptE { c with lin := pick y true (some name) } vect m s = ((m', s'), r) →
        (∃ x, r = .error x) ∧ s'.press = s.press ∧ s'.rates = s.rates ∧ s'.tstep = s.tstep ∧ m'.wells = m.wells ∧ m'.wPress = m.wPress := by
  have e : ∀ n A d, pick y true (some name) n A d = .error .value := fun n A d => by
    unfold pick; rw [if_pos rfl]; dsimp only; rw [if_neg h0, if_neg fun H => h ((documented_iff name).2 H)]
  constructor
  · cases fuel with
    | zero => exact ⟨_, rfl⟩
    | succ n =>
      unfold solveI attempt
      rcases assemble { c with lin := pick y true (some name) } vect m s with x | ⟨m1, s1, A, d⟩
      · exact ⟨x, rfl⟩
      · exact ⟨.value, by simp only [e]; rfl⟩
  · intro m' s' r hr
    unfold attemptE at hr
    rcases ha : assemble { c with lin := pick y true (some name) } vect m s with x | ⟨m1, s1, A, d⟩
    · rw [ha] at hr
      cases hr
      exact ⟨⟨x, rfl⟩, rfl, rfl, rfl, rfl, rfl⟩
    · rw [ha] at hr
      dsimp only at hr
      rw [e] at hr
      cases hr
      obtain ⟨⟨ts, rfl⟩, vA, bV, res, sM, rfl⟩ := assemble_frame ha
      exact ⟨⟨_, rfl⟩, rfl, rfl, rfl, rfl, rfl⟩

/-! ## Examples -/

/-- Direct solvers that are exact and iterative solvers that are not. -/
def exScipy : Scipy ℚ := ⟨cramer, cramer, fun _ => exInexact⟩

/-- A well that reaches its pressure limit in the first step. -/
def exChoice : Mdl ℚ := exMdl true 0 [] (some 8) [(0, "pressure", 10), (3, "rate", 0)] [(2, { q := some (-6), pwf := some 5, r := some 1 })]

lemma exChoice_ready : Ready (exC true 0 []) exChoice := exMdl_ready (by decide +kernel)

/-- **C73** fails: with an exact direct solver that was asked for (`isolver=None`), the pressures recorded for a repeated step are those of the default iterative solver: they are not what the
direct solver gives, and do not solve the system recorded for the step. -/
theorem C73_fails : ∃ (c : Ctx ℚ) (y : Scipy ℚ) (m m' m'' : Mdl ℚ) (s' s'' : Sol ℚ), Ready c m ∧ Exact y.direct ∧ solveI c y true 10 true none m (Sol.init m) = .ok (m', s') ∧
    chosen c y.direct 10 true m (Sol.init m) = .ok (m'', s'') ∧ s'.at 1 1 ≠ s''.at 1 1 ∧
    ∃ i, i < c.e.n ∧ ∑ j ∈ range c.e.n, rowAt s'.As 2 (fun _ => 0) i j * s'.inner c.e 1 j ≠ rowAt s'.ds 2 0 i ∧
      ∑ j ∈ range c.e.n, rowAt s''.As 2 (fun _ => 0) i j * s''.inner c.e 1 j = rowAt s''.ds 2 0 i := by
  have h1 : (solveI (exC true 0 []) exScipy true 10 true none exChoice (Sol.init exChoice)).isOk = true := by decide +kernel
  have h2 : (chosen (exC true 0 []) cramer 10 true exChoice (Sol.init exChoice)).isOk = true := by decide +kernel
  have k : (match solveI (exC true 0 []) exScipy true 10 true none exChoice (Sol.init exChoice), chosen (exC true 0 []) cramer 10 true exChoice (Sol.init exChoice) with
      | .ok (_, s'), .ok (_, s'') => decide (s'.at 1 1 ≠ s''.at 1 1 ∧ ∑ j ∈ range (exC true 0 []).e.n, rowAt s'.As 2 (fun _ => 0) 0 j * s'.inner (exC true 0 []).e 1 j ≠ rowAt s'.ds 2 0 0 ∧
          ∑ j ∈ range (exC true 0 []).e.n, rowAt s''.As 2 (fun _ => 0) 0 j * s''.inner (exC true 0 []).e 1 j = rowAt s''.ds 2 0 0)
      | _, _ => false) = true := by decide +kernel
  rcases e1 : solveI (exC true 0 []) exScipy true 10 true none exChoice (Sol.init exChoice) with x | ⟨m', s'⟩
  · rw [e1] at h1; cases h1
  rcases e2 : chosen (exC true 0 []) cramer 10 true exChoice (Sol.init exChoice) with x | ⟨m'', s''⟩
  · rw [e2] at h2; cases h2
  rw [e1, e2] at k
  obtain ⟨k1, k2⟩ := of_decide_eq_true k
  exact ⟨_, exScipy, exChoice, m', m'', s', s'', exChoice_ready, cramer_exact, e1, e2, k1, 0, by decide +kernel, k2⟩

/-- The first step of `exA` is accepted at once: the direct solver is used. -/
example : ∃ m s, solveI (exC true 0 []) exScipy true 10 true none exA (Sol.init exA) = .ok (m, s) ∧ chosen (exC true 0 []) cramer 10 true exA (Sol.init exA) = .ok (m, s) := by
  have h : FirstHolds { exC true 0 [] with lin := pick exScipy true none } true exA (Sol.init exA) := fun m' s' h => by
    have : (match attempt { exC true 0 [] with lin := pick exScipy true none } true exA (Sol.init exA) with | .ok (_, _, a) => a | _ => false) = false := by decide +kernel
    rw [h] at this; cases this
  have k : (chosen (exC true 0 []) cramer 10 true exA (Sol.init exA)).isOk = true := by decide +kernel
  rcases e : chosen (exC true 0 []) cramer 10 true exA (Sol.init exA) with x | ⟨m, s⟩
  · rw [e] at k; cases k
  · exact ⟨m, s, by rw [C73_step_partial _ _ _ _ _ _ _ (.inr h)]; exact e, rfl⟩

/-- `exChoice` is repeated, so that `C73_repeated` applies. -/
example : ∃ m1 s1, attempt { exC true 0 [] with lin := pick exScipy true none } true exChoice (Sol.init exChoice) = .ok (m1, s1, true) := by
  have k : (match attempt { exC true 0 [] with lin := pick exScipy true none } true exChoice (Sol.init exChoice) with | .ok (_, _, a) => a | _ => false) = true := by decide +kernel
  rcases e : attempt { exC true 0 [] with lin := pick exScipy true none } true exChoice (Sol.init exChoice) with x | ⟨m, s, a⟩
  · rw [e] at k; cases k
  · rw [e] at k; cases k; exact ⟨m, s, rfl⟩

def allFirstB (c : Ctx ℚ) (fuel : ℕ) (vect : Bool) : ℕ → Mdl ℚ → Sol ℚ → Bool
  | 0, _, _ => true
  | n + 1, m, s => (match attempt c vect m s with | .ok (_, _, a) => !a | _ => true) && match solve c fuel vect true m s with | .ok (m, s) => allFirstB c fuel vect n m s | _ => true

lemma allFirstB_all {c : Ctx ℚ} {fuel : ℕ} {vect : Bool} {n : ℕ} {m : Mdl ℚ} {s : Sol ℚ} (h : allFirstB c fuel vect n m s = true) : AllFirst c fuel vect n m s := by
  induction n generalizing m s with
  | zero => trivial
  | succ n ih =>
    unfold allFirstB at h
    rw [Bool.and_eq_true] at h
    refine ⟨fun m' s' e => ?_, fun m' s' e => ?_⟩
    · rw [e] at h; simp at h
    · rw [e] at h; exact ih h.2

/-- The first two steps of `exA` are not repeated. -/
example : ∃ m s, s.tstep = 2 ∧ runLoopI (exC true 0 []) exScipy true 10 true none 2 exA (Sol.init exA) = ((m, s), .ok ()) := by
  rw [C73_run_partial _ _ _ _ _ _ _ _ (.inr (allFirstB_all (by decide +kernel)))]
  exact ⟨_, _, by decide +kernel, Prod.ext rfl (isOk_unit (by decide +kernel))⟩

/-- The hypotheses of `C73_documented` and `C73_none` are met. -/
example : Documented "gcrotmk" ∧ FirstHolds { exC true 0 [] with lin := exScipy.direct } true exA (Sol.init exA) ∧ FirstHolds { exC true 0 [] with lin := exScipy.iter "gcrotmk" } true exA (Sol.init exA) := by
  refine ⟨by unfold Documented; decide, fun m' s' h => ?_, fun m' s' h => ?_⟩
  · have : (match attempt { exC true 0 [] with lin := exScipy.direct } true exA (Sol.init exA) with | .ok (_, _, a) => a | _ => false) = false := by decide +kernel
    rw [h] at this; cases this
  · have : (match attempt { exC true 0 [] with lin := exScipy.iter "gcrotmk" } true exA (Sol.init exA) with | .ok (_, _, a) => a | _ => false) = false := by decide +kernel
    rw [h] at this; cases this

example : "CGS" ≠ "" ∧ ¬ Documented "CGS" := by unfold Documented; decide

end RF.Fdm
