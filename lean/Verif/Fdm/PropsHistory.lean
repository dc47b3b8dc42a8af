import Verif.Fdm.PropsMB
import Verif.Fdm.Fail
/-! # The stored history (C43, C44) -/
set_option linter.unusedSectionVars false
namespace RF.Fdm
open RF RF.Dims Finset

section
variable {K : Type} [Field K] [LinearOrder K] [IsStrictOrderedRing K]

/-! ## C43 -/

/-- What an attempt does to the tables, whether or not it raises an exception. -/
inductive Grown (s s' : Sol K) : Prop
  | same (hp : s'.press = s.press) (hr : s'.rates = s.rates) (ht : s'.tstep = s.tstep) (hA : s'.As = s.As) (hd : s'.ds = s.ds)
  | row (p : ℕ → Option K) (r : ℕ → K) (A : ℕ → ℕ → K) (d : ℕ → K) (hp : s'.press = s.press ++ [p]) (hr : s'.rates = s.rates ++ [r]) (ht : s'.tstep = s.tstep + 1)
      (hA : s'.As = s.As ++ [A]) (hd : s'.ds = s.ds ++ [d])

lemma attemptE_grown (c : Ctx K) (vect : Bool) (m : Mdl K) (s : Sol K) :
    Grown s (attemptE c vect m s).1.2 ∧ (attemptE c vect m s).1.2.nsteps = s.nsteps ∧ (attemptE c vect m s).1.2.ctime = s.ctime ∧
      (isOk (attemptE c vect m s).2 = true → (attemptE c vect m s).1.2.tstep = s.tstep + 1) := by
  unfold attemptE
  rcases ha : assemble c vect m s with x | ⟨m1, s1, A, d⟩
  · exact ⟨.same rfl rfl rfl rfl rfl, rfl, rfl, by simp [isOk]⟩
  obtain ⟨-, vA, bV, res, sM, rfl⟩ := assemble_frame ha
  dsimp only
  rcases c.lin c.e.n A d with x | x
  · exact ⟨.same rfl rfl rfl rfl rfl, rfl, rfl, by simp [isOk]⟩
  dsimp only
  rcases updateBoundsE c.lower c.e m1 (newRow c.e.ids (lastRow s.press none) x) m1.bUpdate (lastRow s.rates 0) with ⟨r, y | ⟨⟩⟩
  · exact ⟨.row _ _ _ _ rfl rfl rfl rfl rfl, rfl, rfl, by simp [isOk]⟩
  dsimp only
  rcases updateWellsE c.e (newRow c.e.ids (lastRow s.press none) x) m1.wells r with ⟨⟨ws, r'⟩, y | ⟨ps, again⟩⟩
  · exact ⟨.row _ _ _ _ rfl rfl rfl rfl rfl, rfl, rfl, by simp [isOk]⟩
  · exact ⟨.row _ _ _ _ rfl rfl rfl rfl rfl, rfl, rfl, fun _ => rfl⟩

/-- One row of pressures and one of rates per step, and the start. -/
def Rows (s : Sol K) : Prop := s.press.length = s.tstep + 1 ∧ s.rates.length = s.tstep + 1

lemma back_grown {s s' : Sol K} (h : Rows s) (hg : Grown s s') (ht : s'.tstep = s.tstep + 1) :
    s'.back.press = s.press ∧ s'.back.rates = s.rates ∧ s'.back.tstep = s.tstep := by
  cases hg with
  | same _ _ h => omega
  | row p r A d hp hr =>
    refine ⟨?_, ?_, ?_⟩
    · show s'.press.take s'.tstep = _
      rw [hp, ht, ← h.1, List.take_left']; rfl
    · show s'.rates.take s'.tstep = _
      rw [hr, ht, ← h.2, List.take_left']; rfl
    · show s'.tstep - 1 = _
      rw [ht]; rfl

/-- What a call does to the tables. -/
structure Extends (s s' : Sol K) : Prop where
  press : s.press <+: s'.press
  rates : s.rates <+: s'.rates
  rows : Rows s'
  tstep : s.tstep ≤ s'.tstep

lemma Extends.trans {s s' s'' : Sol K} (h : Extends s s') (h' : Extends s' s'') : Extends s s'' :=
  ⟨h.press.trans h'.press, h.rates.trans h'.rates, h'.rows, h.tstep.trans h'.tstep⟩

lemma Grown.extends {s s' : Sol K} (h : Rows s) (hg : Grown s s') : Extends s s' := by
  cases hg with
  | same hp hr ht => exact ⟨by rw [hp], by rw [hr], by rw [Rows, hp, hr, ht]; exact h, ht.ge⟩
  | row p r A d hp hr ht => exact ⟨by rw [hp]; exact List.prefix_append _ _, by rw [hr]; exact List.prefix_append _ _, by rw [Rows, hp, hr, ht]; simp [h.1, h.2], by omega⟩

/-- **C43** (`solve`): stored rows never change, there is one row per step, and a call adds one step if it returns, at most one if it raises an exception,
and none with `update=False`. -/
theorem C43_solve (c : Ctx K) (fuel : ℕ) (vect update : Bool) (m : Mdl K) (s : Sol K) (h : Rows s) :
    Extends s (solveE c fuel vect update m s).1.2 ∧ (solveE c fuel vect update m s).1.2.tstep ≤ s.tstep + 1 ∧
    ((solveE c fuel vect update m s).2 = .ok () → update = true → (solveE c fuel vect update m s).1.2.tstep = s.tstep + 1) ∧
    (update = false → (solveE c fuel vect update m s).1.2.press = s.press ∧ (solveE c fuel vect update m s).1.2.rates = s.rates ∧
      (solveE c fuel vect update m s).1.2.tstep = s.tstep) := by
  have hrefl : Extends s s := ⟨List.prefix_rfl, List.prefix_rfl, h, le_rfl⟩
  induction fuel generalizing update m s with
  | zero => exact ⟨hrefl, by simp [solveE], by simp [solveE], fun _ => ⟨rfl, rfl, rfl⟩⟩
  | succ n ih =>
    unfold solveE
    cases update
    · simp only [Bool.false_eq_true, if_false, false_imp_iff, imp_true_iff, true_and]
      rcases ha : assemble c vect m s with x | ⟨m1, s1, A, d⟩
      · exact ⟨hrefl, by simp, fun _ => ⟨rfl, rfl, rfl⟩⟩
      obtain ⟨-, vA, bV, res, sM, rfl⟩ := assemble_frame ha
      dsimp only
      rcases c.lin c.e.n A d with x | x <;>
        exact ⟨⟨List.prefix_rfl, List.prefix_rfl, h, le_rfl⟩, by simp, fun _ => ⟨rfl, rfl, rfl⟩⟩
    · simp only [if_true]
      obtain ⟨g1, -, -, g4⟩ := attemptE_grown c vect m s
      rcases ha : attemptE c vect m s with ⟨⟨m1, s1⟩, x | again⟩
      · rw [ha] at g1
        refine ⟨g1.extends h, ?_, by simp, by simp⟩
        cases g1 with
        | same _ _ ht => exact ht.le.trans (Nat.le_succ _)
        | row _ _ _ _ _ _ ht => exact ht.le
      · rw [ha] at g1 g4
        have ht := g4 rfl
        cases again
        · exact ⟨g1.extends h, ht.le, fun _ _ => ht, by simp⟩
        · obtain ⟨b1, b2, b3⟩ := back_grown h g1 ht
          have hb : Rows s1.back := by rw [Rows, b1, b2, b3]; exact h
          obtain ⟨k1, k2, k3, -⟩ := ih true m1 s1.back hb ⟨List.prefix_rfl, List.prefix_rfl, hb, le_rfl⟩
          dsimp only at k1 k2 k3 ⊢
          refine ⟨⟨by rw [← b1]; exact k1.press, by rw [← b2]; exact k1.rates, k1.rows, by rw [← b3]; exact k1.tstep⟩, by rw [← b3]; exact k2, ?_, by simp⟩
          intro h1 _
          rw [← b3]; exact k3 h1 rfl

lemma runLoopE_extends (c : Ctx K) (fuel : ℕ) (vect : Bool) (n : ℕ) (m : Mdl K) (s : Sol K) (h : Rows s) :
    Extends s (runLoopE c fuel vect n m s).1.2 ∧ (runLoopE c fuel vect n m s).1.2.tstep ≤ s.tstep + n ∧
    ((runLoopE c fuel vect n m s).2 = .ok () → (runLoopE c fuel vect n m s).1.2.tstep = s.tstep + n) := by
  induction n generalizing m s with
  | zero => exact ⟨⟨List.prefix_rfl, List.prefix_rfl, h, le_rfl⟩, le_rfl, fun _ => rfl⟩
  | succ n ih =>
    unfold runLoopE
    obtain ⟨k1, k2, k3, -⟩ := C43_solve c fuel vect true m s h
    rcases hs : solveE c fuel vect true m s with ⟨⟨m1, s1⟩, x | ⟨⟩⟩
    · rw [hs] at k1 k2
      dsimp only at k1 k2 ⊢
      exact ⟨k1, by omega, by simp⟩
    · rw [hs] at k1 k2 k3
      dsimp only at k1 k2 k3 ⊢
      obtain ⟨j1, j2, j3⟩ := ih m1 s1 k1.rows
      refine ⟨k1.trans j1, by omega, fun h => ?_⟩
      rw [j3 h, k3 rfl rfl]; omega

/-- **C43** (`run`). -/
theorem C43_run (c : Ctx K) (fuel : ℕ) (vect : Bool) (n : ℕ) (el : K) (m : Mdl K) (s : Sol K) (h : Rows s) :
    Extends s (runE c fuel vect n el m s).1.2 ∧ (runE c fuel vect n el m s).1.2.tstep ≤ s.tstep + n ∧
    ((runE c fuel vect n el m s).2 = .ok () → (runE c fuel vect n el m s).1.2.tstep = s.tstep + n) := by
  obtain ⟨k1, k2, k3⟩ := runLoopE_extends c fuel vect n m { s with nsteps := s.nsteps + n } h
  unfold runE
  rcases hl : runLoopE c fuel vect n m { s with nsteps := s.nsteps + n } with ⟨⟨m1, s1⟩, x | ⟨⟩⟩
  · rw [hl] at k1 k2 k3
    exact ⟨⟨k1.press, k1.rates, k1.rows, k1.tstep⟩, k2, k3⟩
  · rw [hl] at k1 k2 k3
    exact ⟨⟨k1.press, k1.rates, k1.rows, k1.tstep⟩, k2, k3⟩

/-- The states after any calls of `solve` and `run`, with any arguments, whether they return or raise. -/
inductive Calls (c : Ctx K) (m0 : Mdl K) (s0 : Sol K) : Mdl K → Sol K → Prop
  | start : Calls c m0 s0 m0 s0
  | solve {m s} (fuel : ℕ) (vect update : Bool) (h : Calls c m0 s0 m s) : Calls c m0 s0 (solveE c fuel vect update m s).1.1 (solveE c fuel vect update m s).1.2
  | run {m s} (fuel : ℕ) (vect : Bool) (n : ℕ) (el : K) (h : Calls c m0 s0 m s) : Calls c m0 s0 (runE c fuel vect n el m s).1.1 (runE c fuel vect n el m s).1.2

/-- **C43**: between any two moments of any history of calls, also failing ones, the earlier tables are the beginning of the later ones, and the tables
always have `tstep + 1` rows. -/
theorem C43_append_only (c : Ctx K) {m0 m : Mdl K} {s0 s : Sol K} (h0 : Rows s0) (h : Calls c m0 s0 m s) :
    s0.press <+: s.press ∧ s0.rates <+: s.rates ∧ s.press.length = s.tstep + 1 ∧ s.rates.length = s.tstep + 1 := by
  have key : Extends s0 s := by
    induction h with
    | start => exact ⟨List.prefix_rfl, List.prefix_rfl, h0, le_rfl⟩
    | solve fuel vect update _ ih => exact ih.trans (C43_solve c fuel vect update _ _ ih.rows).1
    | run fuel vect n el _ ih => exact ih.trans (C43_run c fuel vect n el _ _ ih.rows).1
  exact ⟨key.press, key.rates, key.rows.1, key.rows.2⟩

/-- A compiled solution has its first row. -/
theorem C43_start (m : Mdl K) : Rows (Sol.init m) := ⟨rfl, rfl⟩

end

example : ∃ m s, Calls (exC true 0 []) exA (Sol.init exA) m s ∧ s.tstep = 5 ∧ s.press.length = 6 ∧ (Sol.init exA).press <+: s.press :=
  ⟨_, _, .run 10 false 2 0 (.solve 10 true false (.run 10 true 3 0 .start)), by decide +kernel, by decide +kernel,
    (C43_append_only _ (C43_start _) (.run 10 false 2 0 (.solve 10 true false (.run 10 true 3 0 .start)))).1⟩

/-! ## C44 -/

section
variable {K : Type} [Field K] [LinearOrder K] [IsStrictOrderedRing K]

lemma solveE_counters (c : Ctx K) (fuel : ℕ) (vect update : Bool) (m : Mdl K) (s : Sol K) :
    (solveE c fuel vect update m s).1.2.nsteps = s.nsteps ∧ (solveE c fuel vect update m s).1.2.ctime = s.ctime := by
  induction fuel generalizing update m s with
  | zero => exact ⟨rfl, rfl⟩
  | succ n ih =>
    unfold solveE
    cases update
    · simp only [Bool.false_eq_true, if_false]
      rcases ha : assemble c vect m s with x | ⟨m1, s1, A, d⟩
      · exact ⟨rfl, rfl⟩
      obtain ⟨-, vA, bV, res, sM, rfl⟩ := assemble_frame ha
      dsimp only
      rcases c.lin c.e.n A d with x | x <;> exact ⟨rfl, rfl⟩
    · simp only [if_true]
      obtain ⟨-, g2, g3, -⟩ := attemptE_grown c vect m s
      rcases ha : attemptE c vect m s with ⟨⟨m1, s1⟩, x | again⟩
      · rw [ha] at g2 g3; exact ⟨g2, g3⟩
      · rw [ha] at g2 g3
        cases again
        · exact ⟨g2, g3⟩
        · obtain ⟨k1, k2⟩ := ih true m1 s1.back
          exact ⟨k1.trans g2, k2.trans g3⟩

lemma runLoopE_counters (c : Ctx K) (fuel : ℕ) (vect : Bool) (n : ℕ) (m : Mdl K) (s : Sol K) :
    (runLoopE c fuel vect n m s).1.2.nsteps = s.nsteps ∧ (runLoopE c fuel vect n m s).1.2.ctime = s.ctime := by
  induction n generalizing m s with
  | zero => exact ⟨rfl, rfl⟩
  | succ n ih =>
    unfold runLoopE
    obtain ⟨k1, k2⟩ := solveE_counters c fuel vect true m s
    rcases hs : solveE c fuel vect true m s with ⟨⟨m1, s1⟩, x | ⟨⟩⟩
    · rw [hs] at k1 k2; exact ⟨k1, k2⟩
    · rw [hs] at k1 k2
      obtain ⟨j1, j2⟩ := ih m1 s1
      exact ⟨j1.trans k1, j2.trans k2⟩

/-- `nsteps` and `ctime` after a call: `solve` changes neither; `run` adds the number of steps asked for, also if it raises, and the measured time of
the run, if it returns. -/
theorem C44_counters (c : Ctx K) (fuel : ℕ) (vect update : Bool) (n : ℕ) (el : K) (m : Mdl K) (s : Sol K) :
    ((solveE c fuel vect update m s).1.2.nsteps = s.nsteps ∧ (solveE c fuel vect update m s).1.2.ctime = s.ctime) ∧
    (runE c fuel vect n el m s).1.2.nsteps = s.nsteps + n ∧
    (runE c fuel vect n el m s).1.2.ctime = if (runE c fuel vect n el m s).2 = .ok () then s.ctime + el else s.ctime := by
  refine ⟨solveE_counters c fuel vect update m s, ?_⟩
  obtain ⟨k1, k2⟩ := runLoopE_counters c fuel vect n m { s with nsteps := s.nsteps + n }
  unfold runE
  rcases hl : runLoopE c fuel vect n m { s with nsteps := s.nsteps + n } with ⟨⟨m1, s1⟩, x | ⟨⟩⟩
  · rw [hl] at k1 k2
    refine ⟨k1, ?_⟩
    rw [if_neg (by simp)]; exact k2
  · rw [hl] at k1 k2
    refine ⟨k1, ?_⟩
    rw [if_pos rfl]
    show s1.ctime + el = _
    rw [show s1.ctime = s.ctime from k2]

/-- States after `run` calls only, all of which returned. -/
inductive Runs (c : Ctx K) (m0 : Mdl K) : Mdl K → Sol K → Prop
  | start : Runs c m0 m0 (Sol.init m0)
  | run {m s} (fuel : ℕ) (vect : Bool) (n : ℕ) (el : K) (h : Runs c m0 m s) (hok : (runE c fuel vect n el m s).2 = .ok ()) :
      Runs c m0 (runE c fuel vect n el m s).1.1 (runE c fuel vect n el m s).1.2

/-- **C44**, partial: after `run` calls that returned, `nsteps` is the number of stored rows. It is not after `solve` (`C44_solve_fails`) nor after a `run` that raised. -/
theorem C44_nsteps_partial (c : Ctx K) {m0 m : Mdl K} {s : Sol K} (h : Runs c m0 m s) : s.nsteps = s.press.length ∧ s.nsteps = s.tstep + 1 := by
  have key : Rows s ∧ s.nsteps = s.tstep + 1 := by
    induction h with
    | start => exact ⟨⟨rfl, rfl⟩, rfl⟩
    | run fuel vect n el _ hok ih =>
      obtain ⟨k1, -, k3⟩ := C43_run c fuel vect n el _ _ ih.1
      refine ⟨k1.rows, ?_⟩
      rw [(C44_counters c fuel vect true n el _ _).2.1, k3 hok, ih.2]; omega
  exact ⟨key.2.trans key.1.1.symm, key.2⟩

/-- **C44 fails** for `solve`: one step after the start there are two rows and `nsteps` is still 1, for every model. -/
theorem C44_solve_fails (c : Ctx K) (fuel : ℕ) (vect : Bool) (m : Mdl K) (h : (solveE c fuel vect true m (Sol.init m)).2 = .ok ()) :
    (solveE c fuel vect true m (Sol.init m)).1.2.press.length = 2 ∧ (solveE c fuel vect true m (Sol.init m)).1.2.nsteps = 1 := by
  obtain ⟨k1, -, k3, -⟩ := C43_solve c fuel vect true m (Sol.init m) (C43_start m)
  exact ⟨by rw [k1.rows.1, k3 h rfl]; rfl, (solveE_counters c fuel vect true m (Sol.init m)).1⟩

/-- `As` and `ds` have an entry for every attempt, hence at least one for every step. -/
theorem C44_matrices_partial (c : Ctx K) {m0 m : Mdl K} {s : Sol K} (h : Calls c m0 (Sol.init m0) m s) : s.As.length = s.ds.length ∧ s.tstep + 1 ≤ s.As.length := by
  have stp : ∀ (fuel : ℕ) (vect update : Bool) (m : Mdl K) (s : Sol K), (s.As.length = s.ds.length ∧ s.tstep + 1 ≤ s.As.length) → Rows s →
      ((solveE c fuel vect update m s).1.2.As.length = (solveE c fuel vect update m s).1.2.ds.length ∧
        (solveE c fuel vect update m s).1.2.tstep + 1 ≤ (solveE c fuel vect update m s).1.2.As.length) := by
    intro fuel vect
    induction fuel with
    | zero => exact fun _ _ _ h _ => h
    | succ n ih =>
      intro update m s h hro
      unfold solveE
      cases update
      · simp only [Bool.false_eq_true, if_false]
        rcases ha : assemble c vect m s with x | ⟨m1, s1, A, d⟩
        · exact h
        obtain ⟨-, vA, bV, res, sM, rfl⟩ := assemble_frame ha
        dsimp only
        rcases c.lin c.e.n A d with x | x <;> exact h
      · simp only [if_true]
        obtain ⟨g1, -, -, g4⟩ := attemptE_grown c vect m s
        have hg : ∀ {s'}, Grown s s' → s'.As.length = s'.ds.length ∧ s'.tstep + 1 ≤ s'.As.length := by
          intro s' hg
          cases hg with
          | same _ _ ht hA hd => rw [ht, hA, hd]; exact h
          | row _ _ _ _ _ _ ht hA hd => rw [ht, hA, hd]; simp [h.1]; rw [← h.1]; exact h.2
        rcases ha : attemptE c vect m s with ⟨⟨m1, s1⟩, x | again⟩
        · rw [ha] at g1; exact hg g1
        · rw [ha] at g1 g4
          cases again
          · exact hg g1
          · obtain ⟨b1, b2, b3⟩ := back_grown hro g1 (g4 rfl)
            refine ih true m1 s1.back ?_ (by rw [Rows, b1, b2, b3]; exact hro)
            obtain ⟨j1, j2⟩ := hg g1
            have ht : s1.tstep = s.tstep + 1 := g4 rfl
            refine ⟨j1, ?_⟩
            show s1.tstep - 1 + 1 ≤ s1.As.length
            have j3 : s1.tstep + 1 ≤ s1.As.length := j2
            omega
  have lp : ∀ (fuel : ℕ) (vect : Bool) (n : ℕ) (m : Mdl K) (s : Sol K), (s.As.length = s.ds.length ∧ s.tstep + 1 ≤ s.As.length) → Rows s →
      ((runLoopE c fuel vect n m s).1.2.As.length = (runLoopE c fuel vect n m s).1.2.ds.length ∧
        (runLoopE c fuel vect n m s).1.2.tstep + 1 ≤ (runLoopE c fuel vect n m s).1.2.As.length) := by
    intro fuel vect n
    induction n with
    | zero => exact fun _ _ h _ => h
    | succ n ih =>
      intro m s h hro
      unfold runLoopE
      have k1 := stp fuel vect true m s h hro
      have k2 := (C43_solve c fuel vect true m s hro).1.rows
      rcases hs : solveE c fuel vect true m s with ⟨⟨m1, s1⟩, x | ⟨⟩⟩
      · rw [hs] at k1; exact k1
      · rw [hs] at k1 k2; exact ih m1 s1 k1 k2
  have key : (s.As.length = s.ds.length ∧ s.tstep + 1 ≤ s.As.length) ∧ Rows s := by
    induction h with
    | start => exact ⟨⟨rfl, le_rfl⟩, rfl, rfl⟩
    | solve fuel vect update _ ih => exact ⟨stp fuel vect update _ _ ih.1 ih.2, (C43_solve c fuel vect update _ _ ih.2).1.rows⟩
    | @run m s fuel vect n el _ ih =>
      refine ⟨?_, (C43_run c fuel vect n el _ _ ih.2).1.rows⟩
      have := lp fuel vect n m { s with nsteps := s.nsteps + n } ih.1 ih.2
      unfold runE
      rcases hl : runLoopE c fuel vect n m { s with nsteps := s.nsteps + n } with ⟨⟨m1, s1⟩, x | ⟨⟩⟩ <;> rw [hl] at this <;> exact this
  exact key.1

end

/-- **C44 fails** for the stored matrices after a repeated step: 3 steps, 4 rows of pressures, 5 stored matrices. -/
theorem C44_repeated_step_fails : ∃ (c : Ctx ℚ) (m0 m : Mdl ℚ) (s : Sol ℚ), Ready c m0 ∧ Exact c.lin ∧ Runs c m0 m s ∧ s.press.length = 4 ∧ s.As.length = 5 :=
  ⟨exC true 0 [], exA, _, _, exA_ready, cramer_exact, .run 10 true 3 0 .start (isOk_unit (by decide +kernel)), by decide +kernel, by decide +kernel⟩

/-- **C44 fails** after a `run` that raises an exception: `nsteps` counts steps that were never made. -/
theorem C44_failed_run_fails : ∃ (c : Ctx ℚ) (m0 m : Mdl ℚ) (s : Sol ℚ), Ready c m0 ∧ Exact c.lin ∧ Calls c m0 (Sol.init m0) m s ∧ s.press.length = 1 ∧ s.nsteps = 11 :=
  ⟨exC false 0 [], exClosed, _, _, exMdl_ready (by decide +kernel), cramer_exact, .run 10 true 10 0 .start, by decide +kernel, by decide +kernel⟩

end RF.Fdm
