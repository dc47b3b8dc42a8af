import Verif.Fdm.CrashLemmas
import Verif.Fdm.Examples
/-! # Interrupted calls (C91) -/
set_option linter.unusedSectionVars false
namespace RF.Fdm
open RF RF.Dims Finset

section
variable {K : Type} [Field K] [LinearOrder K] [IsStrictOrderedRing K]

/-! ## What is stored before the call stays -/

/-- What a user had before the call `(m, s)` is still there at an interruption `(m', s')`: rows of pressures and rates, kept systems, reported bottom-hole pressures,
conditions, targets, limits and clock; at most one step was counted. -/
structure Retains (m : Mdl K) (s : Sol K) (m' : Mdl K) (s' : Sol K) : Prop where
  press : s.press <+: s'.press
  rates : s.rates <+: s'.rates
  As : s.As <+: s'.As
  ds : s.ds <+: s'.ds
  reported : ∀ id, m.reported id <+: m'.reported id
  bdict : m'.bdict = m.bdict
  bUpdate : m'.bUpdate = m.bUpdate
  wells : m'.wells.map (·.1) = m.wells.map (·.1)
  nsteps : s'.nsteps = s.nsteps
  ctime : s'.ctime = s.ctime
  low : s.tstep ≤ s'.tstep
  high : s'.tstep ≤ s.tstep + 1

lemma Retains.refl (m : Mdl K) (s : Sol K) : Retains m s m s :=
  ⟨List.prefix_rfl, List.prefix_rfl, List.prefix_rfl, List.prefix_rfl, fun _ => List.prefix_rfl, rfl, rfl, rfl, rfl, rfl, le_rfl, Nat.le_succ _⟩

/-- An assembly keeps everything. -/
lemma retains_asm {m m' : Mdl K} {s s' : Sol K} (h1 : ∃ ts, m' = { m with terms := ts }) (h2 : ∃ vA bV res sM, s' = { s with vA := vA, bV := bV, resolve := res, sM := sM }) : Retains m s m' s' := by
  obtain ⟨ts, rfl⟩ := h1
  obtain ⟨vA, bV, res, sM, rfl⟩ := h2
  exact ⟨List.prefix_rfl, List.prefix_rfl, List.prefix_rfl, List.prefix_rfl, fun _ => List.prefix_rfl, rfl, rfl, rfl, rfl, rfl, le_rfl, Nat.le_succ _⟩

lemma Retains.trans' {m m1 m2 : Mdl K} {s s1 s2 : Sol K} (h : Retains m s m1 s1) (ht : s1.tstep = s.tstep) (h' : Retains m1 s1 m2 s2) : Retains m s m2 s2 :=
  ⟨h.press.trans h'.press, h.rates.trans h'.rates, h.As.trans h'.As, h.ds.trans h'.ds, fun id => (h.reported id).trans (h'.reported id), h'.bdict.trans h.bdict,
    h'.bUpdate.trans h.bUpdate, h'.wells.trans h.wells, h'.nsteps.trans h.nsteps, h'.ctime.trans h.ctime, h.low.trans h'.low, ht ▸ h'.high⟩

/-- A step that has to be repeated, after its rows were taken back. -/
lemma retains_back {c : Ctx K} {vect : Bool} {m m1 : Mdl K} {s s1 : Sol K} (hrow : Rows s) (h : attempt c vect m s = .ok (m1, s1, true)) :
    Retains m s m1 s1.back ∧ Retains m s m1 s1 ∧ s1.back.tstep = s.tstep ∧ s1.tstep = s.tstep + 1 ∧ Rows s1.back ∧ s1.back.press = s.press ∧ s1.back.rates = s.rates ∧ Rows s1 := by
  obtain ⟨m2, s2, A, d, x, r, ws, r', ps, h1, -, -, h4, rfl, rfl⟩ := attempt_parts h
  obtain ⟨⟨ts, rfl⟩, vA, bV, res, sM, rfl⟩ := assemble_frame h1
  dsimp only at h4 ⊢
  have hk := updateWells_keys _ h4
  have e1 : (s.press ++ [newRow c.e.ids (lastRow s.press none) x]).take (s.tstep + 1) = s.press := List.take_left' hrow.1
  have e2 : (s.rates ++ [r']).take (s.tstep + 1) = s.rates := List.take_left' hrow.2
  refine ⟨⟨?_, ?_, List.prefix_append _ _, List.prefix_append _ _, fun _ => List.prefix_rfl, rfl, rfl, hk, rfl, rfl, ?_, ?_⟩,
    ⟨List.prefix_append _ _, List.prefix_append _ _, List.prefix_append _ _, List.prefix_append _ _, fun _ => List.prefix_rfl, rfl, rfl, hk, rfl, rfl, ?_, ?_⟩, ?_, rfl, ⟨?_, ?_⟩, e1, e2, ⟨?_, ?_⟩⟩
  · show s.press <+: (s.press ++ _).take _; rw [e1]
  · show s.rates <+: (s.rates ++ _).take _; rw [e2]
  · show s.tstep ≤ s.tstep + 1 - 1; omega
  · show s.tstep + 1 - 1 ≤ _; omega
  · show s.tstep ≤ s.tstep + 1; omega
  · show s.tstep + 1 ≤ s.tstep + 1; omega
  · show s.tstep + 1 - 1 = s.tstep; omega
  · show ((s.press ++ _).take _).length = _; rw [e1, hrow.1]; rfl
  · show ((s.rates ++ _).take _).length = _; rw [e2, hrow.2]; rfl
  · show (s.press ++ _).length = _; simp [hrow.1]
  · show (s.rates ++ _).length = _; simp [hrow.2]

lemma later_retains {m : Mdl K} {s : Sol K} (hrow : Rows s) {x : Spot × St K} (h : Later m s x) :
    Retains m s x.2.1 x.2.2 ∧ x.2.2.tstep = s.tstep + 1 ∧ x.1 ≠ .asm ∧ x.1 ≠ .undo ∧ (Rows x.2.2 ↔ x.1 ≠ .counted) ∧ (x.1 = .stored → ∀ id, x.2.1.reported id = m.reported id) := by
  cases h with
  | counted P hP =>
    refine ⟨⟨List.prefix_append _ _, List.prefix_rfl, List.prefix_rfl, List.prefix_rfl, fun _ => List.prefix_rfl, rfl, rfl, rfl, rfl, rfl, Nat.le_succ _, le_rfl⟩, rfl, by simp, by simp, ?_, by simp⟩
    simp only [ne_eq, not_true_eq_false, iff_false]
    rintro ⟨-, h⟩
    dsimp only at h
    rw [hrow.2] at h
    omega
  | stored ws p r as' ds' hw =>
    refine ⟨⟨List.prefix_append _ _, List.prefix_append _ _, List.prefix_append _ _, List.prefix_append _ _, fun _ => List.prefix_rfl, rfl, rfl, hw, rfl, rfl, Nat.le_succ _, le_rfl⟩, rfl,
      by simp, by simp, ?_, fun _ _ => rfl⟩
    simp [Rows, hrow.1, hrow.2]
  | listed ws wp p r A d hw hp =>
    refine ⟨⟨List.prefix_append _ _, List.prefix_append _ _, List.prefix_append _ _, List.prefix_append _ _, hp, rfl, rfl, hw, rfl, rfl, Nat.le_succ _, le_rfl⟩, rfl,
      by simp, by simp, ?_, by simp⟩
    simp [Rows, hrow.1, hrow.2]

/-! ## The points of a call -/

/-- Interruptions after which the step can be called again: before the assembly, in it, and in the linear solver; while the vectorised assembler makes its matrix anew
or adds a well to it only in the first step, which makes the matrix anew anyway. -/
def Safe (x : Spot × St K) : Prop := x.1 = .asm ∨ (x.1 = .reset ∨ x.1 = .added) ∧ x.2.2.tstep = 0

lemma attempt_same {c : Ctx K} {vect : Bool} {m m' : Mdl K} {s s' : Sol K} (h : assemble c vect m' s' = assemble c vect m s) : attempt c vect m' s' = attempt c vect m s := by
  unfold attempt
  rw [h]

lemma attempt_tidy {c : Ctx K} (hc : c.e.ids.Nodup) {vect : Bool} {m m1 : Mdl K} {s s1 : Sol K} {again : Bool} (hm : Tidy m) (h : attempt c vect m s = .ok (m1, s1, again)) : Tidy m1 := by
  obtain ⟨m2, s2, A, d, x, r, ws, r', ps, h1, -, -, -, rfl, -⟩ := attempt_parts h
  exact (assemble_again hc hm h1).2

lemma solve_succ (c : Ctx K) (fuel : ℕ) (vect : Bool) (m : Mdl K) (s : Sol K) : solve c (fuel + 1) vect true m s =
    match attempt c vect m s with
    | .error x => .error x
    | .ok (m1, s1, true) => solve c fuel vect true m1 s1.back
    | .ok (m1, s1, false) => .ok (m1, s1) := by
  conv_lhs => unfold solve
  rw [if_pos rfl]
  rcases attempt c vect m s with x | ⟨m1, s1, _ | _⟩ <;> rfl

/-- More stack does not change the outcome. -/
lemma solve_deeper {c : Ctx K} {fuel : ℕ} {vect : Bool} {m : Mdl K} {s : Sol K} (h : solve c fuel vect true m s ≠ .error .recursion) :
    solve c (fuel + 1) vect true m s = solve c fuel vect true m s := by
  induction fuel generalizing m s with
  | zero => exact absurd rfl h
  | succ k ih =>
    rw [solve_succ, solve_succ (fuel := k)]
    rw [solve_succ] at h
    rcases ha : attempt c vect m s with x | ⟨m1, s1, _ | _⟩
    · rfl
    · rfl
    · rw [ha] at h
      exact ih h

/-- The points of a call, and what a second call does there. -/
lemma mem_solveT {c : Ctx K} (hc : c.e.ids.Nodup) {fuel : ℕ} {vect : Bool} {m : Mdl K} (hm : Tidy m) {s : Sol K} (hrow : Rows s) {x : Spot × St K} (h : x ∈ (solveT c fuel vect m s).seen) :
    Retains m s x.2.1 x.2.2 ∧ Tidy x.2.1 ∧ (x.2.2.tstep = s.tstep ↔ x.1 = .asm ∨ x.1 = .reset ∨ x.1 = .added) ∧ (Rows x.2.2 ↔ x.1 ≠ .counted ∧ x.1 ≠ .undo) ∧
      (x.1 ≠ .listed → ∀ id, x.2.1.reported id = m.reported id) ∧ (x.1 = .counted ∨ x.1 = .undo → x.2.2.rates = s.rates) ∧
      (Safe x → solve c fuel vect true m s ≠ .error .recursion → solve c fuel vect true x.2.1 x.2.2 = solve c fuel vect true m s) := by
  induction fuel generalizing m s with
  | zero => cases h
  | succ k ih =>
    have key : x ∈ (attemptT c vect m s).seen → Retains m s x.2.1 x.2.2 ∧ Tidy x.2.1 ∧ (x.2.2.tstep = s.tstep ↔ x.1 = .asm ∨ x.1 = .reset ∨ x.1 = .added) ∧
        (Rows x.2.2 ↔ x.1 ≠ .counted ∧ x.1 ≠ .undo) ∧ (x.1 ≠ .listed → ∀ id, x.2.1.reported id = m.reported id) ∧
        (x.1 = .counted ∨ x.1 = .undo → x.2.2.rates = s.rates) ∧ (Safe x → attempt c vect x.2.1 x.2.2 = attempt c vect m s) := by
      intro h
      rcases mem_attemptT h with rfl | h | ⟨m1, s1, A, d, ha, rfl | h⟩
      · exact ⟨Retains.refl m s, hm, by simp, ⟨fun _ => ⟨by simp, by simp⟩, fun _ => hrow⟩, fun _ _ => rfl, fun _ => rfl, fun _ => rfl⟩
      · obtain ⟨h1, ⟨h2, h3⟩, h4, h5⟩ := assemble_resume hc hm h
        have hk := retains_asm h2 h4
        have ht : x.2.2.tstep = s.tstep := by obtain ⟨_, _, _, _, h4⟩ := h4; rw [h4]
        refine ⟨hk, h3, by simpa [ht] using h1, ?_, ?_, fun _ => by obtain ⟨_, _, _, _, h4⟩ := h4; rw [h4], ?_⟩
        · have : Rows x.2.2 := by obtain ⟨_, _, _, _, h4⟩ := h4; rw [h4]; exact hrow
          rcases h1 with h1 | h1 | h1 <;> simp [h1, this]
        · intro _ id
          obtain ⟨ts, h2⟩ := h2
          rw [h2]; rfl
        · intro hs
          refine attempt_same (h5 ?_)
          rcases hs with hs | ⟨-, hs⟩
          · exact .inl hs
          · exact .inr (ht ▸ hs)
      · obtain ⟨h1, h2⟩ := assemble_frame ha
        obtain ⟨h3, h4⟩ := assemble_again hc hm ha
        refine ⟨retains_asm h1 h2, h4, ?_, ?_, ?_, fun _ => by obtain ⟨_, _, _, _, h2⟩ := h2; rw [h2], fun _ => attempt_same (h3.trans ha.symm)⟩
        · obtain ⟨_, _, _, _, h2⟩ := h2; rw [h2]; simp
        · obtain ⟨_, _, _, _, h2⟩ := h2; rw [h2]; exact ⟨fun _ => ⟨by simp, by simp⟩, fun _ => hrow⟩
        · intro _ id
          obtain ⟨ts, h1⟩ := h1
          rw [h1]; rfl
      · obtain ⟨h1, h2⟩ := assemble_frame ha
        have hr : Rows s1 := by obtain ⟨_, _, _, _, h2⟩ := h2; rw [h2]; exact hrow
        have ht : s1.tstep = s.tstep := by obtain ⟨_, _, _, _, h2⟩ := h2; rw [h2]
        obtain ⟨k1, k2, k3, k4, k5, k6⟩ := later_retains hr h
        refine ⟨(retains_asm h1 h2).trans' ht k1, ?_, ?_, ?_, ?_, ?_, ?_⟩
        · have := (assemble_again hc hm ha).2
          cases h <;> exact this
        · rw [k2, ht]
          cases h <;> simp
        · rw [k5]
          exact ⟨fun h => ⟨h, k4⟩, fun h => h.1⟩
        · intro hl id
          have : m1.reported id = m.reported id := by obtain ⟨ts, h1⟩ := h1; rw [h1]; rfl
          rw [← this]
          cases h <;> first | rfl | exact absurd rfl hl
        · intro hs
          have : s1.rates = s.rates := by obtain ⟨_, _, _, _, h2⟩ := h2; rw [h2]
          rw [← this]
          cases h <;> first | rfl | simp at hs
        · rintro (hs | ⟨hs, -⟩)
          · exact absurd hs k3
          · cases h <;> simp at hs
    have solved : (Safe x → attempt c vect x.2.1 x.2.2 = attempt c vect m s) →
        (Safe x → solve c (k + 1) vect true m s ≠ .error .recursion → solve c (k + 1) vect true x.2.1 x.2.2 = solve c (k + 1) vect true m s) := by
      intro h hs _
      rw [solve_succ, solve_succ, h hs]
    unfold solveT at h
    dsimp only at h
    rw [attemptT_out] at h
    split at h
    · obtain ⟨a1, a2, a3, a4, a5, a7, a6⟩ := key h
      exact ⟨a1, a2, a3, a4, a5, a7, solved a6⟩
    · obtain ⟨a1, a2, a3, a4, a5, a7, a6⟩ := key h
      exact ⟨a1, a2, a3, a4, a5, a7, solved a6⟩
    · rename_i m1 s1 ha
      obtain ⟨b1, b2, b3, b4, b5, b6, b7, b8⟩ := retains_back hrow ha
      have hrep : ∀ id, m1.reported id = m.reported id := by
        obtain ⟨m2, s2, A, d, _, _, _, _, _, h1, -, -, -, rfl, -⟩ := attempt_parts ha
        obtain ⟨⟨ts, rfl⟩, -⟩ := assemble_frame h1
        exact fun _ => rfl
      simp only [List.append_assoc, List.mem_append, List.mem_cons, List.not_mem_nil, or_false] at h
      have e1 : s1.rates.take s1.tstep = s.rates := b7
      have e2 : s1.press.take s1.tstep = s.press := b6
      rcases h with h | (rfl | rfl) | h
      · obtain ⟨a1, a2, a3, a4, a5, a7, a6⟩ := key h
        exact ⟨a1, a2, a3, a4, a5, a7, solved a6⟩
      · refine ⟨⟨b2.press, by rw [e1], b2.As, b2.ds, b2.reported, b2.bdict, b2.bUpdate, b2.wells, b2.nsteps, b2.ctime, b2.low, b2.high⟩, attempt_tidy hc hm ha, ?_, ?_, fun _ => hrep, fun _ => e1, ?_⟩
        · simp [b4]
        · simp only [ne_eq, reduceCtorEq, not_false_eq_true, not_true_eq_false, and_false, iff_false]
          rintro ⟨-, h⟩
          dsimp only at h
          rw [e1, b4, hrow.2] at h
          omega
        · rintro (hs | ⟨hs, -⟩) <;> simp at hs
      · refine ⟨⟨by rw [e2], by rw [e1], b2.As, b2.ds, b2.reported, b2.bdict, b2.bUpdate, b2.wells, b2.nsteps, b2.ctime, b2.low, b2.high⟩, attempt_tidy hc hm ha, ?_, ?_, fun _ => hrep, fun _ => e1, ?_⟩
        · simp [b4]
        · simp only [ne_eq, reduceCtorEq, not_false_eq_true, not_true_eq_false, and_false, iff_false]
          rintro ⟨-, h⟩
          dsimp only at h
          rw [e1, b4, hrow.2] at h
          omega
        · rintro (hs | ⟨hs, -⟩) <;> simp at hs
      · obtain ⟨a1, a2, a3, a4, a5, a7, a6⟩ := ih (attempt_tidy hc hm ha) b5 h
        refine ⟨b1.trans' b3 a1, a2, by rw [← b3]; exact a3, a4, fun hl id => (a5 hl id).trans (hrep id), fun hs => (a7 hs).trans b7, fun hs hne => ?_⟩
        have e : solve c (k + 1) vect true m s = solve c k vect true m1 s1.back := by rw [solve_succ, ha]
        rw [e] at hne ⊢
        have := a6 hs hne
        rw [← this] at hne ⊢
        exact solve_deeper hne

/-! ## Histories -/

lemma Hist.tidyRows {c : Ctx K} {m0 m : Mdl K} {s : Sol K} {P : Bool → Mdl K → Mdl K → Prop} (hr : Ready c m0) (h : Hist c P m0 m s) : Tidy m ∧ Rows s := by
  have hc := hr.ctx.wf.nodup
  induction h with
  | start => exact ⟨by unfold Tidy; rw [hr.started.terms]; simp, rfl, rfl⟩
  | step h ha hp ih =>
    refine ⟨attempt_tidy hc ih.1 ha, ?_⟩
    obtain ⟨m2, s2, A, d, x, r, ws, r', ps, h1, -, -, -, -, rfl⟩ := attempt_parts ha
    obtain ⟨-, _, _, _, _, rfl⟩ := assemble_frame h1
    exact ⟨by simp [ih.2.1], by simp [ih.2.2]⟩
  | again h ha hp ih => exact ⟨attempt_tidy hc ih.1 ha, (retains_back ih.2 ha).2.2.2.2.1⟩
  | look h ha ih =>
    refine ⟨(assemble_again hc ih.1 ha).2, ?_⟩
    obtain ⟨-, _, _, _, _, rfl⟩ := assemble_frame ha
    exact ih.2
  | clock n t h ih => exact ih

/-- **C91** Whatever statement of `solve()` an interruption hits: all rows of pressures and rates, all kept systems and all reported bottom-hole pressures from before
the call are still there, in their places; conditions, wells, requested steps and clock are untouched; at most one step was counted. -/
theorem C91_kept {c : Ctx K} {m0 m : Mdl K} {s : Sol K} (hr : Ready c m0) (hh : Hist c Any m0 m s) {fuel : ℕ} {vect : Bool} {x : Spot × St K} (hx : x ∈ (solveT c fuel vect m s).seen) :
    Retains m s x.2.1 x.2.2 :=
  (mem_solveT hr.ctx.wf.nodup (hh.tidyRows hr).1 (hh.tidyRows hr).2 hx).1

/-- **C91** The tables have one row per counted step at every interruption except between raising the step counter and storing the rows, and while the rows of a step that
has to be repeated are removed. The step is counted exactly from the first of these points on, and its bottom-hole pressures are reported last. -/
theorem C91_tables {c : Ctx K} {m0 m : Mdl K} {s : Sol K} (hr : Ready c m0) (hh : Hist c Any m0 m s) {fuel : ℕ} {vect : Bool} {x : Spot × St K} (hx : x ∈ (solveT c fuel vect m s).seen) :
    ((x.2.2.press.length = x.2.2.tstep + 1 ∧ x.2.2.rates.length = x.2.2.tstep + 1) ↔ x.1 ≠ .counted ∧ x.1 ≠ .undo) ∧
      (x.2.2.tstep = s.tstep ↔ x.1 = .asm ∨ x.1 = .reset ∨ x.1 = .added) ∧ (x.1 ≠ .listed → ∀ id, x.2.1.reported id = m.reported id) :=
  have h := mem_solveT hr.ctx.wf.nodup (hh.tidyRows hr).1 (hh.tidyRows hr).2 hx
  ⟨h.2.2.2.1, h.2.2.1, h.2.2.2.2.1⟩

/-- **C91** (part) A call of `solve()` that is interrupted before it counts its step – before the assembly, in it, or in the linear solver – can be repeated: the second
call does what the first would have done. Missing: interruptions while the vectorised assembler makes its matrix anew or adds a well to it after the first step, and
interruptions after the step was counted; see `C91_fails` and `C91_stuck`. -/
theorem C91_resume_solve_partial {c : Ctx K} {m0 m : Mdl K} {s : Sol K} (hr : Ready c m0) (hh : Hist c Any m0 m s) {fuel : ℕ} {vect : Bool} {x : Spot × St K}
    (hx : x ∈ (solveT c fuel vect m s).seen) (hs : x.1 = .asm ∨ (x.1 = .reset ∨ x.1 = .added) ∧ x.2.2.tstep = 0) (hok : solve c fuel vect true m s ≠ .error .recursion) :
    solve c fuel vect true x.2.1 x.2.2 = solve c fuel vect true m s :=
  (mem_solveT hr.ctx.wf.nodup (hh.tidyRows hr).1 (hh.tidyRows hr).2 hx).2.2.2.2.2.2 hs hok

/-! ## Runs -/

lemma solve_clock (c : Ctx K) (fuel : ℕ) (vect : Bool) (m : Mdl K) (s : Sol K) (n : ℕ) (t : K) :
    solve c fuel vect true m { s with nsteps := n, ctime := t } = match solve c fuel vect true m s with
      | .ok (m', s') => .ok (m', { s' with nsteps := n, ctime := t })
      | .error x => .error x := by
  rw [solveE_eq, solveE_eq, solveE_clock]
  rcases solveE c fuel vect true m s with ⟨⟨m1, s1⟩, x | ⟨⟩⟩ <;> rfl

lemma runLoop_clock {c : Ctx K} {fuel : ℕ} {vect : Bool} {b : ℕ} {m m' : Mdl K} {s s' : Sol K} (n : ℕ) (t : K) (h : runLoop c fuel vect b m s = ((m', s'), .ok ())) :
    runLoop c fuel vect b m { s with nsteps := n, ctime := t } = ((m', { s' with nsteps := n, ctime := t }), .ok ()) := by
  induction b generalizing m s with
  | zero =>
    simp only [runLoop, Prod.mk.injEq, and_true] at h ⊢
    obtain ⟨rfl, rfl⟩ := h
    exact ⟨rfl, rfl⟩
  | succ k ih =>
    unfold runLoop at h ⊢
    rw [solve_clock]
    rcases hs : solve c fuel vect true m s with x | ⟨m1, s1⟩
    · rw [hs] at h; simp at h
    · rw [hs] at h; exact ih h

lemma solve_keeps {c : Ctx K} (hc : c.e.ids.Nodup) {fuel : ℕ} {vect : Bool} {m m' : Mdl K} {s s' : Sol K} (hm : Tidy m) (hrow : Rows s) (h : solve c fuel vect true m s = .ok (m', s')) :
    Tidy m' ∧ Rows s' := by
  induction fuel generalizing m s with
  | zero => cases h
  | succ k ih =>
    rw [solve_succ] at h
    rcases ha : attempt c vect m s with x | ⟨m1, s1, _ | _⟩
    · rw [ha] at h; cases h
    · rw [ha] at h
      simp only [Except.ok.injEq, Prod.mk.injEq] at h
      obtain ⟨rfl, rfl⟩ := h
      refine ⟨attempt_tidy hc hm ha, ?_⟩
      obtain ⟨m2, s2, A, d, x, r, ws, r', ps, h1, -, -, -, -, rfl⟩ := attempt_parts ha
      obtain ⟨-, _, _, _, _, rfl⟩ := assemble_frame h1
      exact ⟨by simp [hrow.1], by simp [hrow.2]⟩
    · rw [ha] at h
      exact ih (attempt_tidy hc hm ha) (retains_back hrow ha).2.2.2.2.1 h

/-- The points of a loop are those of the calls of `solve` in it. -/
lemma mem_runLoopT {c : Ctx K} (hc : c.e.ids.Nodup) {fuel : ℕ} {vect : Bool} {n : ℕ} {m : Mdl K} {s : Sol K} (hm : Tidy m) (hrow : Rows s) {k : ℕ} {x : Spot × St K}
    (h : (k, x) ∈ (runLoopT c fuel vect n m s).1) :
    0 < k ∧ k ≤ n ∧ ∃ m1 s1, runLoop c fuel vect (n - k) m s = ((m1, s1), .ok ()) ∧ runLoop c fuel vect n m s = runLoop c fuel vect k m1 s1 ∧ Tidy m1 ∧ Rows s1 ∧
      x ∈ (solveT c fuel vect m1 s1).seen := by
  induction n generalizing m s with
  | zero => cases h
  | succ n ih =>
    unfold runLoopT at h
    dsimp only at h
    rw [solveT_out] at h
    have first : (k, x) ∈ (solveT c fuel vect m s).seen.map (fun y => (n + 1, y)) →
        0 < k ∧ k ≤ n + 1 ∧ ∃ m1 s1, runLoop c fuel vect (n + 1 - k) m s = ((m1, s1), .ok ()) ∧ runLoop c fuel vect (n + 1) m s = runLoop c fuel vect k m1 s1 ∧ Tidy m1 ∧ Rows s1 ∧
          x ∈ (solveT c fuel vect m1 s1).seen := by
      intro h
      rw [List.mem_map] at h
      obtain ⟨y, hy, he⟩ := h
      simp only [Prod.mk.injEq] at he
      obtain ⟨rfl, rfl⟩ := he
      exact ⟨Nat.succ_pos _, le_rfl, m, s, by rw [Nat.sub_self]; rfl, rfl, hm, hrow, hy⟩
    split at h
    · exact first h
    · rename_i m1 s1 hs
      rw [List.mem_append] at h
      rcases h with h | h
      · exact first h
      · obtain ⟨ht, hro⟩ := solve_keeps hc hm hrow hs
        obtain ⟨h1, h2, m2, s2, h3, h4, h5⟩ := ih ht hro h
        refine ⟨h1, by omega, m2, s2, ?_, ?_, h5⟩
        · rw [Nat.succ_sub h2]
          unfold runLoop
          rw [hs]
          exact h3
        · rw [← h4]
          conv_lhs => unfold runLoop
          rw [hs]

lemma runLoop_keeps {c : Ctx K} (hc : c.e.ids.Nodup) {fuel : ℕ} {vect : Bool} {n : ℕ} {m m' : Mdl K} {s s' : Sol K} (hm : Tidy m) (hrow : Rows s)
    (h : runLoop c fuel vect n m s = ((m', s'), .ok ())) : Tidy m' ∧ Rows s' := by
  induction n generalizing m s with
  | zero =>
    simp only [runLoop, Prod.mk.injEq, and_true] at h
    obtain ⟨rfl, rfl⟩ := h
    exact ⟨hm, hrow⟩
  | succ k ih =>
    unfold runLoop at h
    rcases hs : solve c fuel vect true m s with x | ⟨m1, s1⟩
    · rw [hs] at h; simp at h
    · rw [hs] at h
      exact ih (solve_keeps hc hm hrow hs).1 (solve_keeps hc hm hrow hs).2 h

/-- **C91** A run that is interrupted with `k` of its `n` steps to go has everything the `n - k` finished steps stored: it is in the state after `run(n - k)` except for what
the interrupted step added, for the clock, and for the number of requested steps, which is that of the whole run (or, right at the start, unchanged). -/
theorem C91_run_kept {c : Ctx K} {m0 m : Mdl K} {s : Sol K} (hr : Ready c m0) (hh : Hist c Any m0 m s) {fuel : ℕ} {vect : Bool} {n k : ℕ} {x : Spot × St K} (hx : (k, x) ∈ runT c fuel vect n m s) (t : K) :
    k ≤ n ∧ ∃ m1 s1, run c fuel vect (n - k) t m s = ((m1, s1), .ok ()) ∧ Retains m1 { s1 with nsteps := x.2.2.nsteps, ctime := s.ctime } x.2.1 x.2.2 ∧
      (x.2.2.nsteps = s.nsteps + n ∨ x.2 = (m, s) ∧ k = n) := by
  obtain ⟨hm, hrow⟩ := hh.tidyRows hr
  unfold runT at hx
  rw [List.mem_cons] at hx
  rcases hx with hx | hx
  · simp only [Prod.mk.injEq] at hx
    obtain ⟨rfl, rfl⟩ := hx
    refine ⟨le_rfl, m, { s with ctime := s.ctime + t }, by rw [Nat.sub_self]; rfl, ?_, .inr ⟨rfl, rfl⟩⟩
    exact Retains.refl m s
  · obtain ⟨-, h2, m1, s1, h3, -, h5, h6, h7⟩ := mem_runLoopT hr.ctx.wf.nodup (s := { s with nsteps := s.nsteps + n }) hm hrow hx
    have hk := mem_solveT hr.ctx.wf.nodup h5 h6 h7
    have hcl := runLoop_clock (s.nsteps + (n - k)) s.ctime h3
    have hs1 : s1.nsteps = s.nsteps + n ∧ s1.ctime = s.ctime := by
      have := runLoop_clock (s.nsteps + n) s.ctime h3
      rw [show ({ ({ s with nsteps := s.nsteps + n } : Sol K) with nsteps := s.nsteps + n, ctime := s.ctime } : Sol K) = { s with nsteps := s.nsteps + n } from rfl, h3] at this
      simp only [Prod.mk.injEq, and_true, true_and] at this
      exact ⟨by rw [this], by rw [this]⟩
    refine ⟨h2, m1, { s1 with nsteps := s.nsteps + (n - k), ctime := s.ctime + t }, ?_, ?_, .inl (hk.1.nsteps.trans hs1.1)⟩
    · unfold run
      rw [show ({ s with nsteps := s.nsteps + (n - k) } : Sol K) = { ({ s with nsteps := s.nsteps + n } : Sol K) with nsteps := s.nsteps + (n - k), ctime := s.ctime } from rfl, hcl]
    · have e : ({ ({ s1 with nsteps := s.nsteps + (n - k), ctime := s.ctime + t } : Sol K) with nsteps := x.2.2.nsteps, ctime := s.ctime } : Sol K) = s1 := by
        rw [hk.1.nsteps]
        cases s1
        obtain ⟨-, h⟩ := hs1
        dsimp only at h
        subst h
        rfl
      rw [e]
      exact hk.1

/-- `Cut c fuel vect a b`: the run with `b.1` steps from the state `b.2` is what is left of the run with `a.1` steps from `a.2` after any number of interruptions
at harmless points, each followed by a run with the steps that are left. -/
inductive Cut (c : Ctx K) (fuel : ℕ) (vect : Bool) (a : ℕ × St K) : ℕ × St K → Prop
  | whole : Cut c fuel vect a a
  | cut {b : ℕ × St K} {k : ℕ} {x : Spot × St K} (h : Cut c fuel vect a b) (hx : (k, x) ∈ runT c fuel vect b.1 b.2.1 b.2.2)
      (hs : x.1 = .asm ∨ (x.1 = .reset ∨ x.1 = .added) ∧ x.2.2.tstep = 0) : Cut c fuel vect a (k, x.2)

lemma runLoop_safe {c : Ctx K} (hc : c.e.ids.Nodup) {fuel : ℕ} {vect : Bool} {n : ℕ} {m m' : Mdl K} {s s' : Sol K} (hm : Tidy m) (hrow : Rows s)
    (h : runLoop c fuel vect n m s = ((m', s'), .ok ())) {k : ℕ} {x : Spot × St K} (hx : (k, x) ∈ (runLoopT c fuel vect n m s).1) (hs : Safe x) :
    Tidy x.2.1 ∧ Rows x.2.2 ∧ runLoop c fuel vect k x.2.1 x.2.2 = ((m', s'), .ok ()) := by
  obtain ⟨h1, h2, m1, s1, h3, h4, h5, h6, h7⟩ := mem_runLoopT hc hm hrow hx
  obtain ⟨-, a2, -, a4, -, -, a6⟩ := mem_solveT hc h5 h6 h7
  obtain ⟨k, rfl⟩ : ∃ j, k = j + 1 := ⟨k - 1, by omega⟩
  rw [h4] at h
  refine ⟨a2, a4.2 ?_, ?_⟩
  · rcases hs with hs | ⟨hs | hs, -⟩ <;> simp [hs]
  · unfold runLoop at h ⊢
    rcases hso : solve c fuel vect true m1 s1 with z | z
    · rw [hso] at h; simp at h
    · rw [a6 hs (by rw [hso]; simp), hso]
      rw [hso] at h
      exact h

/-- **C91** (part) A run that is interrupted any number of times before its steps are counted, each time followed by a run with the steps that are left, ends with the same
model and the same solution as the run without interruptions – except for the clock and for the number of requested steps, to which every run adds its own. Missing: as
for `C91_resume_solve_partial`. -/
theorem C91_resume_run_partial {c : Ctx K} {m0 m m' : Mdl K} {s s' : Sol K} (hr : Ready c m0) (hh : Hist c Any m0 m s) {fuel : ℕ} {vect : Bool} {n : ℕ} {t : K}
    (hok : run c fuel vect n t m s = ((m', s'), .ok ())) {k : ℕ} {m1 : Mdl K} {s1 : Sol K} (hx : Cut c fuel vect (n, m, s) (k, m1, s1)) (t' : K) :
    run c fuel vect k t' m1 s1 = ((m', { s' with nsteps := s1.nsteps + k, ctime := s.ctime + t' }), .ok ()) := by
  obtain ⟨hm, hrow⟩ := hh.tidyRows hr
  have hc := hr.ctx.wf.nodup
  have lin : ∀ (k : ℕ) (t : K) (m m' : Mdl K) (s s' : Sol K), run c fuel vect k t m s = ((m', s'), .ok ()) →
      runLoop c fuel vect k m s = ((m', { s' with nsteps := s.nsteps, ctime := s.ctime }), .ok ()) := by
    intro k t m m' s s' h
    unfold run at h
    rcases hl : runLoop c fuel vect k m { s with nsteps := s.nsteps + k } with ⟨⟨m2, s2⟩, z | ⟨⟩⟩
    · rw [hl] at h; simp at h
    · rw [hl] at h
      simp only [Prod.mk.injEq, and_true] at h
      obtain ⟨rfl, rfl⟩ := h
      exact (runLoop_clock (s := { s with nsteps := s.nsteps + k }) (s' := s2) s.nsteps s.ctime hl :)
  have lout : ∀ (k : ℕ) (t : K) (m m' : Mdl K) (s s' : Sol K), runLoop c fuel vect k m s = ((m', s'), .ok ()) →
      run c fuel vect k t m s = ((m', { s' with nsteps := s.nsteps + k, ctime := s.ctime + t }), .ok ()) := by
    intro k t m m' s s' h
    have h' := runLoop_clock (s.nsteps + k) s.ctime h
    unfold run
    rw [show ({ s with nsteps := s.nsteps + k } : Sol K) = { s with nsteps := s.nsteps + k, ctime := s.ctime } from rfl, h']
  have key : ∀ b : ℕ × St K, Cut c fuel vect (n, m, s) b → Tidy b.2.1 ∧ Rows b.2.2 ∧ b.2.2.ctime = s.ctime ∧
      runLoop c fuel vect b.1 b.2.1 b.2.2 = ((m', { s' with nsteps := b.2.2.nsteps, ctime := s.ctime }), .ok ()) := by
    intro b hb
    induction hb with
    | whole => exact ⟨hm, hrow, rfl, lin n t m m' s s' hok⟩
    | @cut b k x h hx hs ih =>
      obtain ⟨i1, i2, i3, i4⟩ := ih
      unfold runT at hx
      rw [List.mem_cons] at hx
      rcases hx with hx | hx
      · simp only [Prod.mk.injEq] at hx
        obtain ⟨rfl, rfl⟩ := hx
        exact ⟨i1, i2, i3, i4⟩
      · have h' := runLoop_clock (b.2.2.nsteps + b.1) b.2.2.ctime i4
        rw [show ({ b.2.2 with nsteps := b.2.2.nsteps + b.1, ctime := b.2.2.ctime } : Sol K) = { b.2.2 with nsteps := b.2.2.nsteps + b.1 } from rfl] at h'
        obtain ⟨a1, a2, a3⟩ := runLoop_safe hc (s := { b.2.2 with nsteps := b.2.2.nsteps + b.1 }) i1 i2 h' hx hs
        obtain ⟨-, -, m2, s2, l1, l2, l3, l4, l5⟩ := mem_runLoopT hc (s := { b.2.2 with nsteps := b.2.2.nsteps + b.1 }) i1 i2 hx
        have kk := (mem_solveT hc l3 l4 l5).1
        have e2 := runLoop_clock (b.2.2.nsteps + b.1) b.2.2.ctime l1
        rw [show ({ ({ b.2.2 with nsteps := b.2.2.nsteps + b.1 } : Sol K) with nsteps := b.2.2.nsteps + b.1, ctime := b.2.2.ctime } : Sol K) = { b.2.2 with nsteps := b.2.2.nsteps + b.1 } from rfl, l1] at e2
        simp only [Prod.mk.injEq, and_true, true_and] at e2
        have hn : x.2.2.nsteps = b.2.2.nsteps + b.1 := kk.nsteps.trans (by rw [e2])
        have ht : x.2.2.ctime = b.2.2.ctime := kk.ctime.trans (by rw [e2])
        refine ⟨a1, a2, ht.trans i3, ?_⟩
        rw [a3, hn, i3]
  obtain ⟨-, -, h3, h4⟩ := key _ hx
  rw [lout k t' m1 m' s1 _ h4]
  dsimp only at h3
  rw [h3]

/-! ## Interruptions that break the solution -/

/-- A table lacks the row of the current step. -/
def Short (s : Sol K) : Prop := s.press.length ≤ s.tstep ∨ s.rates.length ≤ s.tstep

lemma solveX_short (c : Ctx K) (fuel : ℕ) (vect mb : Bool) {m : Mdl K} {s : Sol K} (h : Short s) :
    Short (solveX c fuel vect mb m s).1.2 ∧ (mb = true → ∃ e, (solveX c fuel vect mb m s).2 = .error e) := by
  unfold solveX
  rw [if_pos (show s.press.length ≤ s.tstep ∨ s.rates.length ≤ s.tstep from h)]
  rcases ha : assemble c vect m s with z | ⟨m1, s1, A, d⟩
  · exact ⟨h, fun _ => ⟨z, rfl⟩⟩
  obtain ⟨-, vA, bV, res, sM, rfl⟩ := assemble_frame ha
  dsimp only
  rcases c.lin c.e.n A d with z | x
  · exact ⟨h, fun _ => ⟨z, rfl⟩⟩
  dsimp only
  split_ifs with h1 h2 h2
  · exact ⟨.inl (by simpa using h1), fun _ => ⟨_, rfl⟩⟩
  · exact ⟨.inr (by simpa using h.resolve_left h1), fun _ => ⟨_, rfl⟩⟩
  · exact ⟨.inr (by simpa using h.resolve_left h1), fun hb => absurd (.inl hb) h2⟩

/-- **C91** After an interruption between counting a step and storing its rows, or while the rows of a step to be repeated are removed, the solution stays broken for good:
after any number of further calls, whether they return or raise, and with either assembler, `solve()` with its default arguments raises. -/
theorem C91_stuck {c : Ctx K} {m0 m : Mdl K} {s : Sol K} (hr : Ready c m0) (hh : Hist c Any m0 m s) {fuel : ℕ} {vect : Bool} {x : Spot × St K} (hx : x ∈ (solveT c fuel vect m s).seen)
    (hs : x.1 = .counted ∨ x.1 = .undo) (calls : List (ℕ × Bool × Bool)) (fuel' : ℕ) (vect' : Bool) :
    ∃ e, (let y := calls.foldl (fun st a => (solveX c a.1 a.2.1 a.2.2 st.1 st.2).1) x.2; solveX c fuel' vect' true y.1 y.2).2 = .error e := by
  obtain ⟨hm, hrow⟩ := hh.tidyRows hr
  have h0 : Short x.2.2 := by
    obtain ⟨hk, -, ht, -, -, hra, -⟩ := mem_solveT hr.ctx.wf.nodup hm hrow hx
    have hne : x.2.2.tstep ≠ s.tstep := by
      intro he
      have := ht.1 he
      rcases hs with hs | hs <;> simp [hs] at this
    refine .inr ?_
    rw [hra hs, hrow.2]
    have := hk.low
    omega
  have key : ∀ (l : List (ℕ × Bool × Bool)) (y : St K), Short y.2 → Short (l.foldl (fun st a => (solveX c a.1 a.2.1 a.2.2 st.1 st.2).1) y).2 := by
    intro l
    induction l with
    | nil => exact fun _ h => h
    | cons a l ih => exact fun y h => ih _ (solveX_short c a.1 a.2.1 a.2.2 h).1
  exact (solveX_short c fuel' vect' true (key calls x.2 h0)).2 rfl

end

/-! ## Instances -/

/-- The state of the example after `n` steps. -/
def cutS (v : Bool) (n : ℕ) : St ℚ := exRun (exC true 0 []) v n exA

/-- The interruptions of the next step. -/
def cutPts (v w : Bool) (n : ℕ) : List (Spot × St ℚ) := (solveT (exC true 0 []) 10 w (cutS v n).1 (cutS v n).2).seen

/-- The last row of pressures of two cells after a call that returned. -/
def cutRow (x : Except Err (St ℚ)) : List (Option ℚ) := match x with
  | .ok y => [lastRow y.2.press none 1, lastRow y.2.press none 2]
  | .error _ => []

/-- A call of `solve` of the example with the vectorised assembler. -/
def cutGo (x : St ℚ) : Except Err (St ℚ) := solve (exC true 0 []) 10 true true x.1 x.2

/-- **C91 fails** in general. A well reaches its limit in the third step. (1) An interruption between adding the well to the matrix and remembering it: the repeated call
returns, with other pressures, because the well is in the matrix twice. (2) An interruption while the vectorised assembler makes its first matrix, after a step of the
other assembler: the repeated call returns, with other pressures, because it takes the half-made matrix for a finished one. (3) An interruption after the rows were stored:
the step is counted and its tables are complete, but its pressures are those of the attempt that was to be repeated, and its bottom-hole pressure was never reported. -/
theorem C91_fails :
    (∃ x ∈ cutPts true true 2, x.1 = .added ∧ x.2.2.tstep = (cutS true 2).2.tstep ∧ isOk (cutGo x.2) = true ∧ isOk (cutGo (cutS true 2)) = true ∧
      cutRow (cutGo x.2) ≠ cutRow (cutGo (cutS true 2))) ∧
    (∃ x ∈ cutPts false true 1, x.1 = .reset ∧ x.2.2.tstep = (cutS false 1).2.tstep ∧ isOk (cutGo x.2) = true ∧ isOk (cutGo (cutS false 1)) = true ∧
      cutRow (cutGo x.2) ≠ cutRow (cutGo (cutS false 1))) ∧
    (∃ x ∈ cutPts true true 2, x.1 = .stored ∧ x.2.2.tstep = (cutS true 2).2.tstep + 1 ∧ Rows x.2.2 ∧ cutRow (.ok x.2) ≠ cutRow (cutGo (cutS true 2)) ∧
      (x.2.1.reported 2).length = x.2.2.tstep) := by
  have h1 : ((cutPts true true 2)[19]?.any fun x => decide (x.1 = .added) && decide (x.2.2.tstep = (cutS true 2).2.tstep) && isOk (cutGo x.2) && isOk (cutGo (cutS true 2)) &&
      decide (cutRow (cutGo x.2) ≠ cutRow (cutGo (cutS true 2)))) = true := by decide +kernel
  have h2 : ((cutPts false true 1)[5]?.any fun x => decide (x.1 = .reset) && decide (x.2.2.tstep = (cutS false 1).2.tstep) && isOk (cutGo x.2) && isOk (cutGo (cutS false 1)) &&
      decide (cutRow (cutGo x.2) ≠ cutRow (cutGo (cutS false 1)))) = true := by decide +kernel
  have h3 : ((cutPts true true 2)[14]?.any fun x => decide (x.1 = .stored) && decide (x.2.2.tstep = (cutS true 2).2.tstep + 1) &&
      decide (x.2.2.press.length = x.2.2.tstep + 1 ∧ x.2.2.rates.length = x.2.2.tstep + 1) && decide (cutRow (.ok x.2) ≠ cutRow (cutGo (cutS true 2))) &&
      decide ((x.2.1.reported 2).length = x.2.2.tstep)) = true := by decide +kernel
  rw [Option.any_eq_true] at h1 h2 h3
  obtain ⟨x1, e1, h1⟩ := h1
  obtain ⟨x2, e2, h2⟩ := h2
  obtain ⟨x3, e3, h3⟩ := h3
  simp only [Bool.and_eq_true, decide_eq_true_eq] at h1 h2 h3
  exact ⟨⟨x1, List.mem_of_getElem? e1, h1.1.1.1.1, h1.1.1.1.2, h1.1.1.2, h1.1.2, h1.2⟩, ⟨x2, List.mem_of_getElem? e2, h2.1.1.1.1, h2.1.1.1.2, h2.1.1.2, h2.1.2, h2.2⟩,
    ⟨x3, List.mem_of_getElem? e3, h3.1.1.1.1, h3.1.1.1.2, h3.1.1.2, h3.1.2, h3.2⟩⟩

lemma cutS_hist (v : Bool) (n : ℕ) : Hist (exC true 0 []) Any exA (cutS v n).1 (cutS v n).2 := exRun_any exA_ready v n

/-- The step that is repeated passes through points of every kind but one, and the first step through the missing one; all of the theorems above apply to them. -/
example : Ready (exC true 0 []) exA ∧ Hist (exC true 0 []) Any exA (cutS true 2).1 (cutS true 2).2 ∧ Hist (exC true 0 []) Any exA (cutS true 0).1 (cutS true 0).2 ∧
    (∀ k : Spot, k ≠ .reset → ∃ x ∈ cutPts true true 2, x.1 = k) ∧ (∃ x ∈ cutPts true true 0, x.1 = .reset ∧ x.2.2.tstep = 0) ∧ isOk (cutGo (cutS true 2)) = true := by
  refine ⟨exA_ready, cutS_hist true 2, cutS_hist true 0, ?_, ?_, by decide +kernel⟩
  · have h : ∀ k : Spot, k ≠ .reset → k ∈ (cutPts true true 2).map (·.1) := by
      intro k hk
      cases k <;> first | exact absurd rfl hk | decide +kernel
    intro k hk
    obtain ⟨x, hx, rfl⟩ := List.mem_map.1 (h k hk)
    exact ⟨x, hx, rfl⟩
  · have h : ((cutPts true true 0)[1]?.any fun x => decide (x.1 = .reset) && decide (x.2.2.tstep = 0)) = true := by decide +kernel
    rw [Option.any_eq_true] at h
    obtain ⟨x, e, h⟩ := h
    simp only [Bool.and_eq_true, decide_eq_true_eq] at h
    exact ⟨x, List.mem_of_getElem? e, h⟩

/-- A run of four steps from the start, interrupted twice: in the third step, while it is repeated, and then in the second of the two steps left. -/
example : isOk (run (exC true 0 []) 10 true 4 0 exA (Sol.init exA)).2 = true ∧
    ∃ k m1 s1, Cut (exC true 0 []) 10 true (4, exA, Sol.init exA) (k, m1, s1) ∧ k = 1 ∧ s1.nsteps = 7 ∧ s1.tstep = 3 := by
  refine ⟨by decide +kernel, ?_⟩
  have h1 : ((runT (exC true 0 []) 10 true 4 exA (Sol.init exA)).any fun x => decide (x.1 = 2) && decide (x.2.1 = .asm) && decide (x.2.2.1.wells.any fun w => decide (w.2.con = some .pwf)) &&
      ((runT (exC true 0 []) 10 true x.1 x.2.2.1 x.2.2.2).any fun y => decide (y.1 = 1) && decide (y.2.1 = .asm) && decide (y.2.2.2.nsteps = 7) && decide (y.2.2.2.tstep = 3))) = true := by
    decide +kernel
  rw [List.any_eq_true] at h1
  obtain ⟨x, hx, h1⟩ := h1
  simp only [Bool.and_eq_true, decide_eq_true_eq, List.any_eq_true] at h1
  obtain ⟨⟨⟨a1, a2⟩, -⟩, y, hy, ⟨⟨b1, b2⟩, b3⟩, b4⟩ := h1
  exact ⟨y.1, y.2.2.1, y.2.2.2, Cut.cut (Cut.cut .whole hx (.inl a2)) hy (.inl b2), b1, b3, b4⟩

end RF.Fdm
