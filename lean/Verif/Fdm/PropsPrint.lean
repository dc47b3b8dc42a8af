import Verif.Fdm.PropsLook
import Verif.Fdm.PropsEq
/-! # `print_arrays` (C66) -/
set_option linter.unusedSectionVars false
namespace RF.Fdm
open RF RF.Dims Finset

section
variable {K : Type} [Field K] [LinearOrder K] [IsStrictOrderedRing K]

/-! ## The model -/

/-- An attempt after its assembly (fdm.py l.740-772), see `attempt`. -/
def finish (c : Ctx K) (m : Mdl K) (s : Sol K) (A : ℕ → ℕ → K) (d : ℕ → K) : Except Err (Mdl K × Sol K × Bool) := do
  let x ← c.lin c.e.n A d
  let p := newRow c.e.ids (lastRow s.press none) x
  let r ← updateBounds c.lower c.e m p (lastRow s.rates 0)
  let (ws, r, ps, again) ← updateWells c.e p m.wells r
  let wp := if again then m.wPress else ps.foldl (fun wp x => appendAt wp x.1 (some x.2)) m.wPress
  pure ({ m with wells := ws, wPress := wp },
    { s with tstep := s.tstep + 1, press := s.press ++ [p], rates := s.rates ++ [r], As := s.As ++ [A], ds := s.ds ++ [d] },
    again)

lemma attempt_finish (c : Ctx K) (vect : Bool) (m : Mdl K) (s : Sol K) : attempt c vect m s = (do let (m, s, A, d) ← assemble c vect m s; finish c m s A d) := rfl

/-- An attempt with `print_arrays=True` (fdm.py l.730-733 and l.740-772): both assemblies, then the system of the symbolic one is solved. The printed text is not modelled. -/
def attemptP (c : Ctx K) (m : Mdl K) (s : Sol K) : Except Err (Mdl K × Sol K × Bool) := do
  let (m, s, A, d) ← assemble c false m s
  let (m, s, _, _) ← assemble c true m s
  finish c m s A d

/-- `solve(vectorize=vect, print_arrays=pr)` (fdm.py l.690-782); a repetition does not print (l.773). -/
def solveP (c : Ctx K) (vect pr : Bool) (m : Mdl K) (s : Sol K) : ℕ → Except Err (Mdl K × Sol K)
  | 0 => .error .recursion
  | fuel + 1 => do
    let (m, s, again) ← if pr then attemptP c m s else attempt c vect m s
    if again then solve c fuel vect true m s.back else pure (m, s)

/-- One `solve` after the other, each with its own `vectorize` and `print_arrays`; `run(print_arrays=…)` (fdm.py l.784-856) without the clock has the same flags in every step. -/
def stepsP (c : Ctx K) (fuel : ℕ) : List (Bool × Bool) → Mdl K → Sol K → Except Err (Mdl K × Sol K)
  | [], m, s => .ok (m, s)
  | f :: fs, m, s => do
    let (m, s) ← solveP c f.1 f.2 m s fuel
    stepsP c fuel fs m s

/-! ## Without printing -/

lemma solveP_plain (c : Ctx K) (vect : Bool) (m : Mdl K) (s : Sol K) (fuel : ℕ) : solveP c vect false m s fuel = solve c fuel vect true m s := by
  cases fuel with
  | zero => rfl
  | succ n => rfl

/-! ## A printed attempt is a look by the vectorised assembler and a symbolic attempt -/

lemma print_is_look {c : Ctx K} {m m1 m2 : Mdl K} {s s1 s2 : Sol K} {A A' : ℕ → ℕ → K} {d d' : ℕ → K} (h1 : assemble c false m s = .ok (m1, s1, A, d))
    (h2 : assemble c true m1 s1 = .ok (m2, s2, A', d')) :
    ∃ mT sT, assemble c true m s = .ok (mT, sT, A', d') ∧ assemble c false mT sT = .ok (m2, s2, A, d) ∧ ∃ z, mT = hideM false z m ∧ sT = hideS false z s := by
  obtain ⟨z, e1, e2⟩ := look_other (vect := true) h1
  have h2' := h2
  rw [e1, e2, assemble_hide] at h2'
  rcases hT : assemble c true m s with x | ⟨mT, sT, A2, d2⟩
  · rw [hT] at h2'; cases h2'
  rw [hT] at h2'
  simp only [Except.ok.injEq, Prod.mk.injEq] at h2'
  obtain ⟨e3, e4, rfl, rfl⟩ := h2'
  obtain ⟨z', e5, e6⟩ := look_other (vect := false) hT
  refine ⟨mT, sT, rfl, ?_, z', e5, e6⟩
  rw [e5, e6, assemble_hide, h1]
  dsimp only
  rw [← e3, ← e4, e1, e2, e5, e6]
  rfl

lemma attemptP_look {c : Ctx K} {m m' : Mdl K} {s s' : Sol K} {ag : Bool} (h : attemptP c m s = .ok (m', s', ag)) :
    ∃ mT sT A d, assemble c true m s = .ok (mT, sT, A, d) ∧ attempt c false mT sT = .ok (m', s', ag) ∧ ∃ z, mT = hideM false z m ∧ sT = hideS false z s := by
  unfold attemptP at h
  rw [ok_bind] at h
  obtain ⟨⟨m1, s1, A, d⟩, h1, h⟩ := h
  dsimp only at h
  rw [ok_bind] at h
  obtain ⟨⟨m2, s2, A', d'⟩, h2, h⟩ := h
  dsimp only at h
  obtain ⟨mT, sT, k1, k2, z, k3⟩ := print_is_look h1 h2
  refine ⟨mT, sT, A', d', k1, ?_, z, k3⟩
  rw [attempt_finish, k2, bind_ok]
  exact h

/-! ## With the symbolic assembler printing changes nothing -/

lemma solve_hide {c : Ctx K} {fuel : ℕ} {vect : Bool} {z : Hidden K} {m m' : Mdl K} {s s' : Sol K} (h : solve c fuel vect true (hideM vect z m) (hideS vect z s) = .ok (m', s')) :
    ∃ m1 s1, solve c fuel vect true m s = .ok (m1, s1) ∧ m' = hideM vect z m1 ∧ s' = hideS vect z s1 := by
  rw [solveE_eq] at h ⊢
  rw [solveE_hide] at h
  rcases hE : solveE c fuel vect true m s with ⟨⟨m1, s1⟩, x | ⟨⟩⟩ <;> rw [hE] at h
  · cases h
  · simp only [Except.ok.injEq, Prod.mk.injEq] at h
    exact ⟨m1, s1, rfl, h.1.symm, h.2.symm⟩

lemma attempt_hide {c : Ctx K} {vect : Bool} {z : Hidden K} {m m' : Mdl K} {s s' : Sol K} {ag : Bool} (h : attempt c vect (hideM vect z m) (hideS vect z s) = .ok (m', s', ag)) :
    ∃ m1 s1, attempt c vect m s = .ok (m1, s1, ag) ∧ m' = hideM vect z m1 ∧ s' = hideS vect z s1 := by
  rw [attemptE_eq] at h ⊢
  rw [attemptE_hide] at h
  rcases hE : attemptE c vect m s with ⟨⟨m1, s1⟩, x | a⟩ <;> rw [hE] at h
  · cases h
  · simp only [Except.ok.injEq, Prod.mk.injEq] at h
    exact ⟨m1, s1, by rw [h.2.2], h.1.symm, h.2.1.symm⟩

lemma solveP_symbolic {c : Ctx K} {fuel : ℕ} {pr : Bool} {z : Hidden K} {m m' : Mdl K} {s s' : Sol K} (h : solveP c false pr (hideM false z m) (hideS false z s) fuel = .ok (m', s')) :
    ∃ m1 s1 z', solve c fuel false true m s = .ok (m1, s1) ∧ m' = hideM false z' m1 ∧ s' = hideS false z' s1 := by
  cases pr
  · rw [solveP_plain] at h
    obtain ⟨m1, s1, h1, h2⟩ := solve_hide h
    exact ⟨m1, s1, z, h1, h2⟩
  cases fuel with
  | zero => cases h
  | succ n =>
    unfold solveP at h
    simp only [if_true] at h
    rw [ok_bind] at h
    obtain ⟨⟨ma, sa, ag⟩, h1, h⟩ := h
    obtain ⟨mT, sT, A, d, -, h2, z', e1, e2⟩ := attemptP_look h1
    rw [e1, e2, (hide_twice false z' z m s).1, (hide_twice false z' z m s).2] at h2
    obtain ⟨m1, s1, h3, e3, e4⟩ := attempt_hide h2
    unfold solve
    simp only [if_true]
    rw [h3, bind_ok]
    cases ag
    · simp only [Bool.false_eq_true, if_false, ok_pure, Prod.mk.injEq] at h
      obtain ⟨rfl, rfl⟩ := h
      exact ⟨m1, s1, z', rfl, e3, e4⟩
    · simp only [if_true] at h ⊢
      have e5 : sa.back = hideS false z' s1.back := by rw [e4]; rfl
      rw [e3, e5] at h
      obtain ⟨m2, s2, h4, h5⟩ := solve_hide h
      exact ⟨m2, s2, z', h4, h5⟩

/-- **C66** With `vectorize=False`, printing in any of the steps changes nothing: if all steps return with printing they return without it, and the user sees the same. -/
theorem C66_symbolic (c : Ctx K) (fuel : ℕ) (prs : List Bool) {m m' : Mdl K} {s s' : Sol K} (h : stepsP c fuel (prs.map fun p => (false, p)) m s = .ok (m', s')) :
    ∃ m1 s1, stepsP c fuel (prs.map fun _ => (false, false)) m s = .ok (m1, s1) ∧ SameSeen (m', s') (m1, s1) := by
  have key : ∀ (prs : List Bool) (z : Hidden K) (m : Mdl K) (s : Sol K), stepsP c fuel (prs.map fun p => (false, p)) (hideM false z m) (hideS false z s) = .ok (m', s') →
      ∃ m1 s1 z', stepsP c fuel (prs.map fun _ => (false, false)) m s = .ok (m1, s1) ∧ m' = hideM false z' m1 ∧ s' = hideS false z' s1 := by
    intro prs
    induction prs with
    | nil =>
      intro z m s h
      simp only [List.map_nil, stepsP, Except.ok.injEq, Prod.mk.injEq] at h
      exact ⟨m, s, z, rfl, h.1.symm, h.2.symm⟩
    | cons p prs ih =>
      intro z m s h
      simp only [List.map_cons, stepsP] at h ⊢
      rw [ok_bind] at h
      obtain ⟨⟨ma, sa⟩, h1, h⟩ := h
      obtain ⟨m1, s1, z', h2, e1, e2⟩ := solveP_symbolic h1
      dsimp only at h
      rw [e1, e2] at h
      rw [solveP_plain, h2, bind_ok]
      exact ih z' m1 s1 h
  obtain ⟨m1, s1, z', h1, e1, e2⟩ := key prs ⟨m.terms, s.sM, s.vA, s.bV, s.resolve⟩ m s h
  rw [e1, e2]
  exact ⟨m1, s1, h1, rfl, rfl, rfl, rfl, rfl, rfl, rfl, rfl, rfl⟩

/-- **C66** With `vectorize=True` a printed step that need not be repeated is a step of the symbolic assembler. -/
theorem C66_vectorised_is_symbolic {c : Ctx K} {m m' : Mdl K} {s s' : Sol K} (n : ℕ) (h : solveP c true true m s 1 = .ok (m', s')) :
    solveP c true true m s (n + 1) = .ok (m', s') ∧ ∃ m1 s1, solve c (n + 1) false true m s = .ok (m1, s1) ∧ SameSeen (m', s') (m1, s1) := by
  unfold solveP at h ⊢
  simp only [if_true] at h ⊢
  rw [ok_bind] at h
  obtain ⟨⟨ma, sa, ag⟩, h1, h⟩ := h
  rw [h1, bind_ok]
  cases ag
  · simp only [Bool.false_eq_true, if_false, ok_pure, Prod.mk.injEq] at h ⊢
    obtain ⟨rfl, rfl⟩ := h
    refine ⟨⟨rfl, rfl⟩, ?_⟩
    obtain ⟨mT, sT, A, d, -, h2, z', rfl, rfl⟩ := attemptP_look h1
    obtain ⟨m1, s1, h3, e1, e2⟩ := attempt_hide h2
    unfold solve
    simp only [if_true]
    rw [h3, bind_ok, e1, e2]
    exact ⟨m1, s1, rfl, rfl, rfl, rfl, rfl, rfl, rfl, rfl, rfl, rfl⟩
  · simp only [if_true] at h
    cases h

/-! ## Mixed assemblers -/

/-- Twins of two calm histories solve to the same cell pressures, whichever assembler the second uses. -/
lemma solutions_agree_any {c : Ctx K} {m0 m n m1 m2 : Mdl K} {s t s1 s2 : Sol K} (v : Bool) (hr : Ready c m0) (h2 : Planar c.e) (hf : c.e.Flat) (hg : RatesGiven m0) (han : Anchored c.e m0)
    (hx : Exact c.lin) (hh : Hist c Calm m0 m s) (hh' : Hist c Calm m0 n t) (hz : NoZeroPwf m) (htw : Twin m n s t) {A A' : ℕ → ℕ → K} {d d' x x' : ℕ → K}
    (a1 : assemble c true m s = .ok (m1, s1, A, d)) (a2 : c.lin c.e.n A d = .ok x) (b1 : assemble c v n t = .ok (m2, s2, A', d')) (b2 : c.lin c.e.n A' d' = .ok x') :
    ∀ i, i < c.e.n → x i = x' i := by
  cases v
  · exact solutions_agree hr h2 hf hg han hx hh hh' hz htw a1 a2 b1 b2
  obtain ⟨hi, hq⟩ := hr.calm hh
  obtain ⟨hi', hq'⟩ := hr.calm hh'
  have hz' : NoZeroPwf n := by unfold NoZeroPwf; rw [htw.wells]; exact hz
  have e1 := (assemble_solves hr.ctx hi hq (fun _ => hf) (fun _ => hz) a1 x).1 (hx _ _ _ _ a2)
  have e2 := (assemble_solves hr.ctx hi' hq' (fun _ => hf) (fun _ => hz') b1 x').1 (hx _ _ _ _ b2)
  refine balance_unique hr.ctx.wf hf (hr.ctx.grid.network true) hi.mdl (hh.anchored hr han) e1 fun i hin => ?_
  rw [← e2 i hin]
  have hb : m.bdict = n.bdict := by rw [hi.same.bdict, hi'.same.bdict]
  unfold excess outsideIn usedRate Sol.inner
  rw [htw.wells, hb, htw.press, htw.rates, htw.tstep]
  rfl

/-- One attempt of the second simulation, printed or not. -/
lemma attempt_twin_any {c : Ctx K} {m0 : Mdl K} (hr : Ready c m0) (h2 : Planar c.e) (hf : c.e.Flat) (hg : RatesGiven m0) (han : Anchored c.e m0) (hx : Exact c.lin) (v : Bool)
    {m n m' n' : Mdl K} {s t s' t' : Sol K} {ag ag' : Bool} (hh : Hist c Calm m0 m s) (hh' : Hist c Calm m0 n t) (htw : Twin m n s t)
    (a1 : attempt c true m s = .ok (m', s', ag)) (p1 : Calm true m m') (b1 : attempt c v n t = .ok (n', t', ag')) :
    Twin m' n' s' t' ∧ ag' = ag ∧ Calm v n n' := by
  have hi := hr.inv hh
  have hi' := hr.inv hh'
  obtain ⟨t1, rfl⟩ := attempt_twin htw (by rw [hi.same.bdict, hi'.same.bdict]) (by rw [hi.same.upd, hi'.same.upd]) a1 b1
    fun _ _ _ _ _ _ _ _ _ _ k1 k2 k3 k4 => solutions_agree_any v hr h2 hf hg han hx hh hh' (p1.2 rfl) htw k1 k2 k3 k4
  exact ⟨t1, rfl, by unfold NoRelease; rw [htw.wells, t1.wells]; exact p1.1, fun _ => by unfold NoZeroPwf; rw [htw.wells]; exact p1.2 rfl⟩

lemma solve_twin_any {c : Ctx K} {m0 : Mdl K} (hr : Ready c m0) (h2 : Planar c.e) (hf : c.e.Flat) (hg : RatesGiven m0) (han : Anchored c.e m0) (hx : Exact c.lin) (v : Bool) (f f' : ℕ)
    {m n m' n' : Mdl K} {s t s' t' : Sol K} (hh : Hist c Calm m0 m s) (hh' : Hist c Calm m0 n t) (htw : Twin m n s t) (hP : SolveAll c Calm f true m s)
    (h1 : solve c f true true m s = .ok (m', s')) (h3 : solve c f' v true n t = .ok (n', t')) :
    Twin m' n' s' t' ∧ Hist c Calm m0 m' s' ∧ Hist c Calm m0 n' t' := by
  induction f generalizing f' m n s t with
  | zero => simp [solve] at h1
  | succ f ih =>
    cases f' with
    | zero => simp [solve] at h3
    | succ f' =>
      unfold solve at h1 h3
      simp only [if_true] at h1 h3
      rw [ok_bind] at h1 h3
      obtain ⟨⟨ma, sa, ag⟩, a1, h1⟩ := h1
      obtain ⟨⟨na, ta, ag'⟩, b1, h3⟩ := h3
      obtain ⟨p1, p2⟩ := hP ma sa ag a1
      obtain ⟨t1, rfl, p1'⟩ := attempt_twin_any hr h2 hf hg han hx v hh hh' htw a1 p1 b1
      cases ag'
      · simp only [Bool.false_eq_true, if_false, ok_pure, Prod.mk.injEq] at h1 h3
        obtain ⟨rfl, rfl⟩ := h1
        obtain ⟨rfl, rfl⟩ := h3
        exact ⟨t1, .step hh a1 p1, .step hh' b1 p1'⟩
      · simp only [if_true] at h1 h3
        exact ih f' (.again hh a1 p1) (.again hh' b1 p1') t1.back (p2 rfl) h1 h3

lemma solveP_twin {c : Ctx K} {m0 : Mdl K} (hr : Ready c m0) (h2 : Planar c.e) (hf : c.e.Flat) (hg : RatesGiven m0) (han : Anchored c.e m0) (hx : Exact c.lin) (v pr : Bool) (f f' : ℕ)
    {m n m' n' : Mdl K} {s t s' t' : Sol K} (hh : Hist c Calm m0 m s) (hh' : Hist c Calm m0 n t) (htw : Twin m n s t) (hP : SolveAll c Calm f true m s)
    (h1 : solve c f true true m s = .ok (m', s')) (h3 : solveP c v pr n t f' = .ok (n', t')) :
    Twin m' n' s' t' ∧ Hist c Calm m0 m' s' ∧ Hist c Calm m0 n' t' := by
  cases pr
  · rw [solveP_plain] at h3
    exact solve_twin_any hr h2 hf hg han hx v f f' hh hh' htw hP h1 h3
  cases f with
  | zero => simp [solve] at h1
  | succ f =>
    cases f' with
    | zero => cases h3
    | succ f' =>
      unfold solveP at h3
      unfold solve at h1
      simp only [if_true] at h1 h3
      rw [ok_bind] at h1 h3
      obtain ⟨⟨ma, sa, ag⟩, a1, h1⟩ := h1
      obtain ⟨⟨na, ta, ag'⟩, b0, h3⟩ := h3
      obtain ⟨nT, tT, A, d, b2, b1, z, e1, e2⟩ := attemptP_look b0
      have hh2 : Hist c Calm m0 nT tT := .look hh' b2
      have htw2 : Twin m nT s tT := by rw [e1, e2]; exact ⟨htw.wells, htw.wPress, htw.press, htw.rates, htw.tstep⟩
      obtain ⟨p1, p2⟩ := hP ma sa ag a1
      obtain ⟨t1, rfl, p1'⟩ := attempt_twin_any hr h2 hf hg han hx false hh hh2 htw2 a1 p1 b1
      cases ag'
      · simp only [Bool.false_eq_true, if_false, ok_pure, Prod.mk.injEq] at h1 h3
        obtain ⟨rfl, rfl⟩ := h1
        obtain ⟨rfl, rfl⟩ := h3
        exact ⟨t1, .step hh a1 p1, .step hh2 b1 p1'⟩
      · simp only [if_true] at h1 h3
        exact solve_twin_any hr h2 hf hg han hx v f f' (.again hh a1 p1) (.again hh2 b1 p1') t1.back (p2 rfl) h1 h3

/-- **C66, partial** (and **C32** for mixed assemblers) On one- and two-dimensional grids, with cells at one depth, given rates or pressures, an anchored model and no
well leaving its pressure limit or held at bottom-hole pressure zero (`Calm`): whatever `vectorize` and `print_arrays` are in each single step, the report is the one of `vectorize=True` without printing. -/
theorem C66_mixed_partial {c : Ctx K} {m0 : Mdl K} (hr : Ready c m0) (h2 : Planar c.e) (hf : c.e.Flat) (hg : RatesGiven m0) (han : Anchored c.e m0) (hx : Exact c.lin) (f f' : ℕ)
    (fs : List (Bool × Bool)) {m m' n' : Mdl K} {s s' t' : Sol K} (hh : Hist c Calm m0 m s) (hP : RunAll c Calm f true fs.length m s)
    (h1 : stepsP c f (fs.map fun _ => (true, false)) m s = .ok (m', s')) (h3 : stepsP c f' fs m s = .ok (n', t')) : Twin m' n' s' t' := by
  have key : ∀ (fs : List (Bool × Bool)) (m n : Mdl K) (s t : Sol K), Hist c Calm m0 m s → Hist c Calm m0 n t → Twin m n s t → RunAll c Calm f true fs.length m s →
      stepsP c f (fs.map fun _ => (true, false)) m s = .ok (m', s') → stepsP c f' fs n t = .ok (n', t') → Twin m' n' s' t' := by
    intro fs
    induction fs with
    | nil =>
      intro m n s t _ _ h4 _ h1 h3
      simp only [List.map_nil, stepsP, Except.ok.injEq, Prod.mk.injEq] at h1 h3
      obtain ⟨rfl, rfl⟩ := h1
      obtain ⟨rfl, rfl⟩ := h3
      exact h4
    | cons p fs ih =>
      intro m n s t k1 k2 k3 hP h1 h3
      simp only [List.map_cons, stepsP] at h1 h3
      rw [ok_bind] at h1 h3
      obtain ⟨⟨ma, sa⟩, a1, h1⟩ := h1
      obtain ⟨⟨na, ta⟩, b1, h3⟩ := h3
      rw [solveP_plain] at a1
      obtain ⟨q1, q2, q3⟩ := solveP_twin hr h2 hf hg han hx p.1 p.2 f f' k1 k2 k3 hP.1 a1 b1
      exact ih ma na sa ta q2 q3 q1 (hP.2 _ _ a1) h1 h3
  exact key fs m m s s hh hh (.refl _ _) hP h1 h3

end

/-! ## Where printing changes the results -/

lemma exDeep_print : isOk (stepsP (exC true 3 [5, 5, 7, 7]) 10 [(true, true)] (exDeep true) (Sol.init (exDeep true))) = true := by decide +kernel
lemma exDeep_plain : isOk (stepsP (exC true 3 [5, 5, 7, 7]) 10 [(true, false)] (exDeep true) (Sol.init (exDeep true))) = true := by decide +kernel

/-- **C66 fails** `print_arrays=True` changes the pressures: here by gravity (as any difference between the assemblers, see `C32_*_fails`). -/
theorem C66_printing_fails : ∃ (c : Ctx ℚ) (m0 : Mdl ℚ) (m m' : Mdl ℚ) (s s' : Sol ℚ), Ready c m0 ∧ Exact c.lin ∧ Anchored c.e m0 ∧
    stepsP c 10 [(true, false)] m0 (Sol.init m0) = .ok (m, s) ∧ stepsP c 10 [(true, true)] m0 (Sol.init m0) = .ok (m', s') ∧
      ∃ id, id ∈ c.e.ids ∧ rowAt s.press 1 none id ≠ rowAt s'.press 1 none id :=
  ⟨exC true 3 [5, 5, 7, 7], exDeep true, _, _, _, _, exDeep_ready true, cramer_exact, Or.inl (by decide +kernel), getOk_eq _ exDeep_plain, getOk_eq _ exDeep_print,
    1, by decide +kernel, by decide +kernel⟩

/-! ## Instances -/

/-- Printed steps of both kinds in a run in which a well reaches its limit. -/
example : Ready (exC true 0 []) exA ∧ Planar (exC true 0 []).e ∧ (exC true 0 []).e.Flat ∧ RatesGiven exA ∧ Anchored (exC true 0 []).e exA ∧ Exact (exC true 0 []).lin ∧
    isOk (stepsP (exC true 0 []) 10 [(true, true), (false, true), (true, false), (false, false)] exA (Sol.init exA)) = true ∧
    isOk (stepsP (exC true 0 []) 10 [(true, false), (true, false), (true, false), (true, false)] exA (Sol.init exA)) = true ∧
    RunAll (exC true 0 []) Calm 10 true 4 exA (Sol.init exA) :=
  ⟨exA_ready, ex_planar _ _ _, ex_flat true, exA_given, Or.inl (by decide +kernel), cramer_exact, by decide +kernel, by decide +kernel, runCalmB_all (by decide +kernel)⟩

example : isOk (solveP (exC true 3 [5, 5, 7, 7]) true true (exDeep true) (Sol.init (exDeep true)) 1) = true ∧
    isOk (stepsP (exC true 0 []) 10 [(false, true), (false, false)] exA (Sol.init exA)) = true := ⟨by decide +kernel, by decide +kernel⟩

end RF.Fdm
