import Verif.Fdm.PropsHistory
/-! # Wells along histories (C44-C47) -/
set_option linter.unusedSectionVars false
namespace RF.Fdm
open RF RF.Dims Finset

variable {K : Type} [Field K] [LinearOrder K] [IsStrictOrderedRing K]

/-! ## reported bottom-hole pressures -/

/-- The bottom-hole pressures reported for the well in cell `id`. -/
def Mdl.reported (m : Mdl K) (id : ℕ) : List (Option K) := (dictGet m.wPress id).getD []

lemma appendAt_get (d : List (ℕ × List (Option K))) (id k : ℕ) (v : Option K) :
    (dictGet (appendAt d id v) k).getD [] = if k = id then (dictGet d k).getD [] ++ [v] else (dictGet d k).getD [] := by
  unfold appendAt
  rw [dictGet_set]
  by_cases h : k = id
  · subst h; simp
  · rw [if_neg (Ne.symm h), if_neg h]

lemma appendAll_get (ps : List (ℕ × K)) (hk : (ps.map (·.1)).Nodup) (d : List (ℕ × List (Option K))) :
    (∀ x, x ∈ ps → (dictGet (ps.foldl (fun wp x => appendAt wp x.1 (some x.2)) d) x.1).getD [] = (dictGet d x.1).getD [] ++ [some x.2]) ∧
    ∀ k, k ∉ ps.map (·.1) → (dictGet (ps.foldl (fun wp x => appendAt wp x.1 (some x.2)) d) k).getD [] = (dictGet d k).getD [] := by
  induction ps generalizing d with
  | nil => exact ⟨by simp, fun _ _ => rfl⟩
  | cons y ps ih =>
    rw [List.map_cons, List.nodup_cons] at hk
    obtain ⟨i1, i2⟩ := ih hk.2 (appendAt d y.1 (some y.2))
    rw [List.foldl_cons]
    refine ⟨fun x hx => ?_, fun k hk' => ?_⟩
    · rcases List.mem_cons.1 hx with rfl | hx
      · rw [i2 _ hk.1, appendAt_get, if_pos rfl]
      · have : x.1 ≠ y.1 := fun h => hk.1 (h ▸ List.mem_map.2 ⟨x, hx, rfl⟩)
        rw [i1 x hx, appendAt_get, if_neg this]
    · simp only [List.map_cons, List.mem_cons, not_or] at hk'
      rw [i2 k hk'.2, appendAt_get, if_neg hk'.1]

lemma forall2_keys {α β : Type} {R : ℕ × α → ℕ × β → Prop} {l : List (ℕ × α)} {l' : List (ℕ × β)} (h : List.Forall₂ (fun x y => y.1 = x.1 ∧ R x y) l l') :
    l'.map (·.1) = l.map (·.1) := by
  induction h with
  | nil => rfl
  | cons h1 _ ih => simp [h1.1, ih]

lemma WellDone.split {e : Env K} {p : K} {w w' : Well K} {q b : K} (h : WellDone e p w w' q b) :
    (w' = atLimit e w p ∧ q = windex e w * (w.pwfsp.getD 0 - p) ∧ b = w.pwfsp.getD 0 ∧ ∀ qs, w.qsp = some qs → estPwf e w p qs ≤ w.pwfsp.getD 0) ∨
    ∃ qs, w' = atTarget e w p qs ∧ q = w.q.getD 0 ∧ b = estPwf e w p qs ∧ w.qsp = some qs ∧ w.pwfsp.getD 0 < estPwf e w p qs := by
  cases h with
  | limit h1 h2 => exact .inl ⟨rfl, rfl, rfl, h1⟩
  | target qs h1 h2 => exact .inr ⟨qs, rfl, rfl, rfl, h1, h2⟩

/-- What an accepted step leaves of a well: `w` before it, `w'` after it, `q` the recorded rate, `b` the recorded bottom-hole pressure. -/
lemma accepted {c : Ctx K} {m0 m m' : Mdl K} {s s' : Sol K} {vect : Bool} (hl : LowerOK c.lower) (he : c.e.WF) (hi : Inv c.e m0 m s)
    (ha : attempt c vect m s = .ok (m', s', false)) {w' : ℕ × Well K} (hw : w' ∈ m'.wells) :
    ∃ w b, w ∈ m.wells ∧ w.1 = w'.1 ∧ WellDone c.e ((rowAt s'.press s'.tstep none w'.1).getD 0) w.2 w'.2 (rowAt s'.rates s'.tstep 0 w'.1) b ∧ w'.2.pwf = some b ∧
      m'.reported w'.1 = m.reported w'.1 ++ [some b] := by
  obtain ⟨m1, s1, A, d, x, p, r', ps, h⟩ := attempted hl he hi ha
  obtain ⟨h1, h2⟩ := h.done rfl
  obtain ⟨w, hw', h3, b, h4⟩ := (forall2_mem h1).1 w' hw
  obtain ⟨y, hy, h5, w2, q2, h6⟩ := (forall2_mem h2).2 w hw'
  have hp : rowAt s'.press s'.tstep none = p := by rw [h.press, h.tstep, rowAt_append_eq hi.plen]
  have hr : rowAt s'.rates s'.tstep 0 = r' := by rw [h.rates, h.tstep, rowAt_append_eq hi.rlen]
  have hsp := (hi.mdl.well w hw').sp
  have hb : y.2 = b := by
    rcases h4.split with ⟨-, -, g1, g2⟩ | ⟨qs, -, -, g1, g2, g3⟩ <;> rcases h6.split with ⟨-, -, g1', g2'⟩ | ⟨qs', -, -, g1', g2', g3'⟩
    · rw [g1, g1']
    · exact absurd (g2 _ g2') (not_le.2 g3')
    · exact absurd (g2' _ g2) (not_le.2 g3)
    · rw [g2] at g2'; cases g2'; rw [g1, g1']
  have hk : (ps.map (·.1)).Nodup := by rw [forall2_keys h2]; exact hi.mdl.wkeys
  refine ⟨w, b, hw', h3.symm, ?_, ?_, ?_⟩
  · rw [hp, hr, h3]; exact h4
  · obtain ⟨sp, hsp⟩ := hsp
    rcases h4.split with ⟨g1, -, g2, -⟩ | ⟨qs, g1, -, g2, -⟩
    · rw [g1, g2, hsp]; exact hsp
    · rw [g1, g2]; rfl
  · unfold Mdl.reported
    have := (appendAll_get ps hk m.wPress).1 y hy
    rw [h5, ← h3, hb] at this
    rw [h.wPress]; exact this

/-- **C44**: the table of bottom-hole pressures grows by one entry per well and step, along every history. -/
theorem C44_bottom_hole_pressures {c : Ctx K} {m0 m : Mdl K} {s : Sol K} (hr : Ready c m0) (hh : Hist c Any m0 m s) :
    ∀ id, id ∈ m0.wells.map (·.1) → (m.reported id).length = (m0.reported id).length + s.tstep := by
  induction hh with
  | start => exact fun id _ => rfl
  | @step m s vect m' s' h ha _ ih =>
    intro id hid
    have hi := hr.inv h
    obtain ⟨m1, s1, A, d, x, p, r', ps, h1⟩ := attempted hr.ctx.lower hr.ctx.wf hi ha
    rw [← hi.same.wells.keys, ← h1.same.wells.keys] at hid
    obtain ⟨w', hw', rfl⟩ := List.mem_map.1 hid
    obtain ⟨w, b, hw, -, -, -, h2⟩ := accepted hr.ctx.lower hr.ctx.wf hi ha hw'
    rw [h2, List.length_append, ih w'.1 (by rw [← hi.same.wells.keys, ← h1.same.wells.keys]; exact hid), h1.tstep]; rfl
  | @again m s vect m' s' h ha _ ih =>
    intro id hid
    have hi := hr.inv h
    obtain ⟨m1, s1, A, d, x, p, r', ps, h1⟩ := attempted hr.ctx.lower hr.ctx.wf hi ha
    rw [(back_attempted hi h1).2.2, ← ih id hid]
    unfold Mdl.reported
    rw [h1.wPress]; rfl
  | look _ ha ih =>
    obtain ⟨⟨ts, rfl⟩, vA, bV, res, sM, rfl⟩ := assemble_frame ha
    exact ih
  | clock n t _ ih => exact ih

/-! ## C45 -/

/-- Production of a well at its limit when the cell has pressure `p`. -/
lemma windex_eq (e : Env K) (w : Well K) (v p : K) : windex e w * (v - p) = -(w.G.getD 0) / (e.mu * e.B) * (p - v) := by
  unfold windex; rw [mul_comm e.mu]; ring

/-- **C45**. After every call of `solve` that returns, in every history, every well has a bottom-hole pressure `b` that is the one reported and is not below
its limit `l`, the limit given before the simulation; and a well whose target rate `qs` needs the limit or less is at the limit, and its recorded rate is what it
delivers there. -/
theorem C45_limit {c : Ctx K} {m0 m m' : Mdl K} {s s' : Sol K} (hr : Ready c m0) (hh : Hist c Any m0 m s) {fuel : ℕ} {vect : Bool}
    (hs : solve c fuel vect true m s = .ok (m', s')) {w : ℕ × Well K} (hw : w ∈ m'.wells) :
    ∃ w0 b l, w0 ∈ m0.wells ∧ w0.1 = w.1 ∧ w0.2.pwfsp = some l ∧ w0.2.qsp = w.2.qsp ∧ w0.2.G = w.2.G ∧ w.2.pwf = some b ∧ (m'.reported w.1).getLast? = some (some b) ∧ l ≤ b ∧
      ∀ qs, w0.2.qsp = some qs → qs ≤ -(w.2.G.getD 0) / (c.e.mu * c.e.B) * ((rowAt s'.press s'.tstep none w.1).getD 0 - l) →
        b = l ∧ w.2.con = some .pwf ∧ rowAt s'.rates s'.tstep 0 w.1 = -(w.2.G.getD 0) / (c.e.mu * c.e.B) * ((rowAt s'.press s'.tstep none w.1).getD 0 - l) := by
  obtain ⟨m1, s1, h1, -, -, -, ha, -⟩ := solve_last hr.ctx.lower hr.ctx.wf hr.started.mdl hh (solveAll_any c fuel vect m s) hs
  have he := hr.ctx.wf
  have hi := hr.inv h1
  obtain ⟨w1, b, hw1, hk, hd, hb, hrep⟩ := accepted hr.ctx.lower he hi ha hw
  obtain ⟨w0, hw0, h2⟩ := (forall2_mem hi.same.wells).1 w1 hw1
  obtain ⟨l, hl⟩ := (hi.mdl.well w1 hw1).sp
  have hwo := hi.mdl.well w1 hw1
  have sm := hd.move.same
  refine ⟨w0, b, l, hw0, h2.1.symm.trans hk, by rw [← h2.2.2.1]; exact hl, by rw [sm.2.2, h2.2.2.2], by rw [sm.1, h2.2.1], hb, by rw [hrep]; simp, ?_, ?_⟩
  · rcases hd.split with ⟨-, -, g2, -⟩ | ⟨qs, -, -, g2, -, g3⟩
    · rw [g2, hl]; rfl
    · rw [hl] at g3; rw [g2]; exact g3.le
  · intro qs hqs hle
    rw [← windex_eq] at hle ⊢
    have hwx : windex c.e w.2 = windex c.e w1.2 := by unfold windex; rw [sm.1]
    have hq1 : w1.2.qsp = some qs := by rw [h2.2.2.2]; exact hqs
    rw [hwx] at hle ⊢
    have hnt : ¬ w1.2.pwfsp.getD 0 < estPwf c.e w1.2 ((rowAt s'.press s'.tstep none w.1).getD 0) qs := by
      rw [est_lt_iff he.B he.mu hwo, hl]; exact not_lt.2 hle
    rcases hd.split with ⟨g1, g2, g3, -⟩ | ⟨qs', -, -, -, g2, g3⟩
    · rw [g1, g2, g3, hl]; exact ⟨rfl, rfl, rfl⟩
    · rw [hq1] at g2; cases g2
      exact absurd g3 hnt

/-! ## C46 -/

/-- **C46**, partial: after a step in a history in which no well leaves its limit, the recorded rate of a well is the rate the well shows, and it belongs to the
reported bottom-hole pressure and the new pressure of the cell. Missing: histories in which a well leaves its limit, where it fails (`C46_released_well`). -/
theorem C46_rate_partial {c : Ctx K} {m0 m m' : Mdl K} {s s' : Sol K} {vect : Bool} (hr : Ready c m0) (hh : Hist c Calm m0 m s)
    (ha : attempt c vect m s = .ok (m', s', false)) (hP : Calm vect m m') {w : ℕ × Well K} (hw : w ∈ m'.wells) :
    ∃ b q, w.2.pwf = some b ∧ (m'.reported w.1).getLast? = some (some b) ∧ w.2.q = some q ∧ rowAt s'.rates s'.tstep 0 w.1 = q ∧
      q = -(w.2.G.getD 0) / (c.e.mu * c.e.B) * ((rowAt s'.press s'.tstep none w.1).getD 0 - b) := by
  have he := hr.ctx.wf
  obtain ⟨hi, hq⟩ := hr.calm hh
  obtain ⟨w1, b, hw1, hk, hd, hb, hrep⟩ := accepted hr.ctx.lower he hi ha hw
  have hwo := hi.mdl.well w1 hw1
  have sm := hd.move.same
  have hrel := hP.1 w1 w hw1 hw hk
  have hwx : windex c.e w.2 = windex c.e w1.2 := by unfold windex; rw [sm.1]
  refine ⟨b, rowAt s'.rates s'.tstep 0 w.1, hb, by rw [hrep]; simp, ?_, rfl, ?_⟩
  · rcases hd.split with ⟨g1, g2, -⟩ | ⟨qs, g1, g2, -, g3, -⟩
    · rw [g1, g2]; rfl
    · obtain ⟨q, hq'⟩ := hwo.tgt qs g3
      rw [g1, g2, hq']; exact hq'
  · rw [← windex_eq, hwx]
    rcases hd.split with ⟨-, g2, g3, -⟩ | ⟨qs, g1, g2, g3, g4, -⟩
    · rw [g2, g3]
    · obtain ⟨G, hG, hG0⟩ := hwo.G
      have hcon : w1.2.con = some .q := by
        rcases hcon : w1.2.con with _ | _ | _
        · exact absurd hcon (hq.cfg w1 hw1)
        · rfl
        · have := hrel hcon; rw [g1] at this; simp [atTarget] at this
      rw [g2, g3, hq.tame w1 hw1 hcon, g4]
      unfold estPwf windex
      rw [hG]
      dsimp only [Option.getD_some]
      have hB := he.B.ne'
      have hmu := he.mu.ne'
      have hG1 := hG0.ne'
      field_simp
      ring

/-- **C46**, partial: the recorded rates are those of the solved equations: in every cell, hence in the cell of every well, inflow from other cells at the new
pressures plus recorded rates is the change of the stored volume. -/
theorem C46_equation_partial {c : Ctx K} {m0 m m' : Mdl K} {s s' : Sol K} {vect : Bool} (hr : Ready c m0) (hx : Exact c.lin) (hh : Hist c Calm m0 m s)
    (hf : vect = true → c.e.Flat) (hn : NoLeftover m0) (hg : vect = false → RatesGiven m0) (ha : attempt c vect m s = .ok (m', s', false)) (hP : Calm vect m m')
    {w : ℕ × Well K} (hw : w ∈ m'.wells) :
    ∃ i, i < c.e.n ∧ c.e.at i = w.1 ∧ flowIn c.e (c.e.trans vect) (s'.inner c.e s'.tstep) i + recordedIn c.e (rowAt s'.rates s'.tstep 0) i =
      c.e.rhs w.1 * (s'.inner c.e s'.tstep i - s.inner c.e s.tstep i) := by
  obtain ⟨hi, hq⟩ := hr.calm hh
  obtain ⟨w1, b, hw1, hk, -⟩ := accepted hr.ctx.lower hr.ctx.wf hi ha hw
  have hid : w.1 ∈ c.e.ids := hk ▸ hi.mdl.wmem w1 hw1
  refine ⟨_, idx_lt c.e hid, at_idx c.e hid, ?_⟩
  have := recorded_balance hr.ctx hx hi hq hf hn hg hP ha (idx_lt c.e hid)
  rw [at_idx c.e hid] at this
  exact this

/-! ## C47 -/

/-- `solve` from this state repeats the step at least `k` times. -/
inductive Repeats (c : Ctx K) (vect : Bool) : ℕ → Mdl K → Sol K → Prop
  | zero {m s} : Repeats c vect 0 m s
  | succ {k m s m' s'} (ha : attempt c vect m s = .ok (m', s', true)) (h : Repeats c vect k m' s'.back) : Repeats c vect (k + 1) m s

/-- Whether a well may ask for the step to be repeated. -/
def due (w : Well K) : Bool := decide (w.q = w.qsp) && w.qsp.isSome

/-- Binary number of the wells that may ask, the first well being the lowest digit. -/
def dueNumber : List (ℕ × Well K) → ℕ
  | [] => 0
  | x :: l => (if due x.2 then 1 else 0) + 2 * dueNumber l

lemma dueNumber_lt (l : List (ℕ × Well K)) : dueNumber l + 1 ≤ 2 ^ l.length := by
  induction l with
  | nil => simp [dueNumber]
  | cons x l ih =>
    unfold dueNumber
    rw [List.length_cons, pow_succ]
    split_ifs <;> omega

lemma again_due {e : Env K} {p : K} {w : Well K} (h : WellAgain e p w) : due w = true := by
  obtain ⟨qs, h1, -, h3⟩ := h
  unfold due; rw [h1, h3]; simp

lemma limit_notDue {e : Env K} (hB : 0 < e.B) (hmu : 0 < e.mu) {p : K} {w : Well K} (hw : WellOK w) (h : WellAgain e p w) : due (atLimit e w p) = false := by
  obtain ⟨qs, h1, h2, h3⟩ := h
  have : ¬ w.pwfsp.getD 0 ≤ estPwf e w p qs := not_le.2 h2
  have h4 : qs ≠ windex e w * (w.pwfsp.getD 0 - p) := by
    intro h5
    apply this
    obtain ⟨G, hG, hG0⟩ := hw.G
    rw [h5]; unfold estPwf windex; rw [hG, Option.getD_some]
    have := hB.ne'; have := hmu.ne'; have := hG0.ne'
    refine le_of_eq ?_
    field_simp; ring
  unfold due atLimit
  dsimp only
  rw [h1]
  simpa using fun h => h4 (Eq.symm h)

lemma dueNumber_drop {l1 l1' : List (ℕ × Well K)} (hl : l1'.length = l1.length) {x y : ℕ × Well K} (hx : due x.2 = true) (hy : due y.2 = false) (l2 : List (ℕ × Well K)) :
    dueNumber (l1' ++ y :: l2) + 1 ≤ dueNumber (l1 ++ x :: l2) := by
  induction l1 generalizing l1' with
  | nil =>
    obtain rfl : l1' = [] := List.length_eq_zero_iff.1 hl
    simp only [List.nil_append, dueNumber, hx, hy]
    simp
  | cons a l1 ih =>
    obtain _ | ⟨a', l1'⟩ := l1'
    · simp at hl
    · have := ih (l1' := l1') (by simpa using hl)
      simp only [List.cons_append, dueNumber]
      split_ifs <;> omega

/-- **C47** in every history, whatever the linear solver returns: with `n` wells a step is repeated fewer than `2 ^ n` times. -/
theorem C47_terminates {c : Ctx K} {m0 m : Mdl K} {s : Sol K} (hr : Ready c m0) (hh : Hist c Any m0 m s) {vect : Bool} {k : ℕ} (h : Repeats c vect k m s) :
    k + 1 ≤ 2 ^ m0.wells.length := by
  have key : k ≤ dueNumber m.wells := by
    induction h with
    | zero => exact Nat.zero_le _
    | @succ k m s m' s' ha h ih =>
      have hi := hr.inv hh
      obtain ⟨m1, s1, A, d, x, p, r', ps, h1⟩ := attempted hr.ctx.lower hr.ctx.wf hi ha
      obtain ⟨l1, y, l2, l1', e1, e2, e3, e4⟩ := h1.more rfl
      have i1 := ih (.again hh ha trivial)
      rw [e2] at i1
      rw [e1]
      have hy := hi.mdl.well y (by rw [e1]; simp)
      have := dueNumber_drop (x := y) e4.length_eq.symm (again_due e3) (y := (y.1, atLimit c.e y.2 ((p y.1).getD 0))) (limit_notDue hr.ctx.wf.B hr.ctx.wf.mu hy e3) l2
      omega
  have h1 := dueNumber_lt m.wells
  rw [show m.wells.length = m0.wells.length from (hr.inv hh).same.wells.length_eq.symm] at h1
  omega

/-- A call of `solve` repeats the step until it is accepted, an exception is raised, or the recursion limit is reached; the last needs as many repetitions. -/
lemma solve_recursion {c : Ctx K} (fuel : ℕ) {vect : Bool} {m : Mdl K} {s : Sol K} (h : ¬ Repeats c vect fuel m s) (f' : ℕ) (hf : fuel ≤ f') :
    solve c f' vect true m s = solve c fuel vect true m s := by
  induction fuel generalizing m s f' with
  | zero => exact absurd .zero h
  | succ n ih =>
    obtain _ | f' := f'
    · omega
    unfold solve
    simp only [if_true]
    rcases ha : attempt c vect m s with x | ⟨m1, s1, again⟩
    · rfl
    · cases again
      · rfl
      · simp only [bind_ok, if_true]
        exact ih (fun h' => h (.succ ha h')) f' (by omega)

/-- **C47**: the result of `solve` does not depend on the recursion limit once that exceeds `2 ^ n`. -/
theorem C47_limit {c : Ctx K} {m0 m : Mdl K} {s : Sol K} (hr : Ready c m0) (hh : Hist c Any m0 m s) (vect : Bool) (fuel : ℕ) (h : 2 ^ m0.wells.length ≤ fuel) :
    solve c fuel vect true m s = solve c (2 ^ m0.wells.length) vect true m s :=
  solve_recursion _ (fun h' => absurd (C47_terminates hr hh h') (by omega)) fuel h

/-! ### at most one repetition per well -/

/-- The balance with the wells after an attempt that is to be repeated, at the pressures of that attempt. -/
lemma again_excess {c : Ctx K} {m0 m m' : Mdl K} {s s' : Sol K} {vect : Bool} (hr : Ready c m0) (hx : Exact c.lin) (hh : Hist c Calm m0 m s)
    (hf : vect = true → c.e.Flat) (ha : attempt c vect m s = .ok (m', s', true)) (hP : Calm vect m m') :
    Anchored c.e m' ∧ ∀ i, i < c.e.n →
      0 ≤ excess c.e (c.e.trans vect) m' (usedRate vect m' s'.back) (s'.back.inner c.e s'.back.tstep) (s'.inner c.e s'.tstep) i := by
  have he := hr.ctx.wf
  obtain ⟨hi, hq⟩ := hr.calm hh
  have hb := step_balance hr.ctx hx hi hq hf hP.2 ha
  obtain ⟨m1, s1, A, d, x, p, r', ps, h⟩ := attempted hr.ctx.lower he hi ha
  obtain ⟨b1, b2, b3⟩ := back_attempted hi h
  obtain ⟨l1, y, l2, l1', e1, e2, e3, e4⟩ := h.more rfl
  refine ⟨.inr (.inr ⟨(y.1, atLimit c.e y.2 ((p y.1).getD 0)), by rw [e2]; simp, rfl⟩), fun i hin => ?_⟩
  have hpx : ∀ w : ℕ × Well K, w.1 = c.e.at i → (p w.1).getD 0 = s'.inner c.e s'.tstep i := by
    intro w hw
    rw [h.inner he hi hin, h.peq, hw, newRow_at he.nodup _ _ hin]; rfl
  have hold : s'.back.inner c.e s'.back.tstep i = s.inner c.e s.tstep i := by unfold Sol.inner; rw [b1, b3]
  have hu : usedRate vect m' s'.back = usedRate vect m s := by
    unfold usedRate givenRate
    rw [h.same.bdict, b2, b3]
  have flow : ∀ w w' q b, w ∈ m.wells → w' ∈ m'.wells → w'.1 = w.1 → WellDone c.e ((p w.1).getD 0) w.2 w'.2 q b →
      wellIn c.e (s'.inner c.e s'.tstep i) i w = wellIn c.e (s'.inner c.e s'.tstep i) i w' := by
    intro w w' q b hw hw' hk hd
    unfold wellIn
    rw [hk]
    split_ifs with hid
    · rw [hpx w hid] at hd
      have := done_flow he.B he.mu (hi.mdl.well w hw) (hq.cfg w hw) (hq.tame w hw) hd (hP.1 w w' hw hw' hk.symm)
      rw [this.1, this.2]
    · rfl
  have k1 : (l1.map (wellIn c.e (s'.inner c.e s'.tstep i) i)).sum ≤ (l1'.map (wellIn c.e (s'.inner c.e s'.tstep i) i)).sum := by
    refine sum_le_of_forall2 (fun w w' hww => ?_) (forall2_and e4)
    obtain ⟨⟨h1, q, b, h2⟩, h3, h4⟩ := hww
    exact (flow w w' q b (by rw [e1]; simp [h3]) (by rw [e2]; simp [h4]) h1 h2).le
  have hy : y ∈ m.wells := by rw [e1]; simp
  have k2 : wellIn c.e (s'.inner c.e s'.tstep i) i y ≤ wellIn c.e (s'.inner c.e s'.tstep i) i (y.1, atLimit c.e y.2 ((p y.1).getD 0)) := by
    unfold wellIn
    dsimp only
    split_ifs with hid
    · have hwo := hi.mdl.well y hy
      obtain ⟨qs, g1, g2, g3⟩ := e3
      rw [hpx y hid] at g2 ⊢
      have : qs ≤ windex c.e y.2 * (y.2.pwfsp.getD 0 - s'.inner c.e s'.tstep i) := by
        have := (est_lt_iff he.B he.mu hwo (s'.inner c.e s'.tstep i) qs).not.1 (not_lt.2 g2.le)
        exact not_lt.1 this
      have hlim : wellFlow c.e (atLimit c.e y.2 (s'.inner c.e s'.tstep i)) (s'.inner c.e s'.tstep i) = windex c.e y.2 * (y.2.pwfsp.getD 0 - s'.inner c.e s'.tstep i) := rfl
      rw [hlim]
      rcases hcon : y.2.con with _ | _ | _
      · exact absurd hcon (hq.cfg y hy)
      · unfold wellFlow; rw [hcon, g3]; exact this
      · refine le_of_eq ?_
        unfold wellFlow windex; rw [hcon, hwo.lim hcon]
    · exact le_rfl
  have hw : (m.wells.map (wellIn c.e (s'.inner c.e s'.tstep i) i)).sum ≤ (m'.wells.map (wellIn c.e (s'.inner c.e s'.tstep i) i)).sum := by
    rw [e1, e2, List.map_append, List.map_append, List.map_cons, List.map_cons, List.sum_append, List.sum_append, List.sum_cons, List.sum_cons]
    linarith
  have := hb i hin
  rw [hu]
  unfold excess outsideIn at this ⊢
  rw [hold, h.same.bdict]
  linarith

/-- A well that has asked for a repetition, and the pressures of the last attempt. -/
def Spent (e : Env K) (y : ℕ → K) (w : ℕ × Well K) : Prop :=
  w.2.con = some .pwf ∧ ∀ qs, w.2.qsp = some qs → w.2.q = some qs → w.2.pwfsp.getD 0 ≤ estPwf e w.2 (y (e.ids.idxOf w.1)) qs

lemma est_mono (e : Env K) (w : Well K) {p p' : K} (h : p ≤ p') (qs : K) : estPwf e w p qs ≤ estPwf e w p' qs := by
  unfold estPwf; linarith

lemma est_limit {e : Env K} (hB : 0 < e.B) (hmu : 0 < e.mu) {w : Well K} (hw : WellOK w) {p qs : K} (h : windex e w * (w.pwfsp.getD 0 - p) = qs) : w.pwfsp.getD 0 = estPwf e w p qs := by
  obtain ⟨G, hG, hG0⟩ := hw.G
  rw [← h]; unfold estPwf windex; rw [hG, Option.getD_some]
  have := hB.ne'; have := hmu.ne'; have := hG0.ne'
  field_simp; ring

lemma limit_spent {e : Env K} (hB : 0 < e.B) (hmu : 0 < e.mu) {w : ℕ × Well K} (hw : WellOK w.2) (y : ℕ → K) : Spent e y (w.1, atLimit e w.2 (y (e.ids.idxOf w.1))) := by
  refine ⟨rfl, fun qs _ h2 => ?_⟩
  have h2' : windex e w.2 * (w.2.pwfsp.getD 0 - y (e.ids.idxOf w.1)) = qs := by simpa [atLimit] using h2
  exact (est_limit hB hmu hw h2').le

/-- **C47**, partial: with `n` wells a step is repeated at most `n` times, in histories in which no well leaves its limit, with an exact linear solver. Missing:
histories in which a well leaves its limit; for them `C47_terminates` gives a weaker bound. -/
theorem C47_once_partial {c : Ctx K} {m0 m : Mdl K} {s : Sol K} (hr : Ready c m0) (hx : Exact c.lin) {vect : Bool} (hf : vect = true → c.e.Flat) {k : ℕ}
    (hh : Hist c Calm m0 m s) (hP : SolveAll c Calm k vect m s) (h : Repeats c vect k m s) : k ≤ m0.wells.length := by
  have he := hr.ctx.wf
  have hT := hr.ctx.grid.network vect
  have key : ∀ S : Finset ℕ, S ⊆ (m0.wells.map (·.1)).toFinset → ∀ y : ℕ → K,
      (S.Nonempty → Anchored c.e m ∧ ∀ i, i < c.e.n → 0 ≤ excess c.e (c.e.trans vect) m (usedRate vect m s) (s.inner c.e s.tstep) y i) →
      (∀ w, w ∈ m.wells → w.1 ∈ S → Spent c.e y w) → k + S.card ≤ m0.wells.length := by
    induction h with
    | zero =>
      intro S hS y _ _
      have := (card_le_card hS).trans (List.toFinset_card_le _)
      rw [List.length_map] at this
      omega
    | @succ k m s m' s' ha h ih =>
      intro S hS y hlow hsp
      obtain ⟨hi, hq⟩ := hr.calm hh
      obtain ⟨hP1, hP2⟩ := hP m' s' true ha
      obtain ⟨m1, s1, A, d, x, p, r', ps, h1⟩ := attempted hr.ctx.lower he hi ha
      obtain ⟨l1, t, l2, l1', e1, e2, e3, e4⟩ := h1.more rfl
      have hb := step_balance hr.ctx hx hi hq hf hP1.2 ha
      obtain ⟨a1, a2⟩ := again_excess hr hx hh hf ha hP1
      have hup : S.Nonempty → ∀ i, i < c.e.n → y i ≤ s'.inner c.e s'.tstep i := by
        intro hS'
        obtain ⟨g1, g2⟩ := hlow hS'
        refine Net.le_of_inflow_le (anchored_leaky he hT hi.mdl g1) fun i hin => ?_
        have f1 := excess_linear c.e hT m (usedRate vect m s) (s.inner c.e s.tstep) y hin
        have f2 := excess_linear c.e hT m (usedRate vect m s) (s.inner c.e s.tstep) (s'.inner c.e s'.tstep) hin
        rw [← f1, ← f2, hb i hin]
        have := g2 i hin
        linarith
      have hpx : ∀ w, w ∈ m.wells → (p w.1).getD 0 = s'.inner c.e s'.tstep (c.e.ids.idxOf w.1) := by
        intro w hw
        have hid := hi.mdl.wmem w hw
        rw [h1.inner he hi (idx_lt c.e hid), h1.peq, newRow_mem hid]; rfl
      have ht : t ∈ m.wells := by rw [e1]; simp
      have htS : t.1 ∉ S := by
        intro hin
        obtain ⟨qs, g1, g2, g3⟩ := e3
        have g4 := (hsp t ht hin).2 qs g1 g3
        rw [hpx t ht] at g2
        have := est_mono c.e t.2 (hup ⟨_, hin⟩ _ (idx_lt c.e (hi.mdl.wmem t ht))) qs
        exact absurd (g4.trans this) (not_le.2 g2)
      have tk : t.1 ∈ (m0.wells.map (·.1)).toFinset := by
        rw [List.mem_toFinset, ← hi.same.wells.keys]; exact List.mem_map.2 ⟨t, ht, rfl⟩
      have hS' : insert t.1 S ⊆ (m0.wells.map (·.1)).toFinset := insert_subset tk hS
      have := ih (.again hh ha hP1) (hP2 rfl) (insert t.1 S) hS' (s'.inner c.e s'.tstep) (fun _ => ⟨a1, a2⟩) ?_
      · rw [card_insert_of_notMem htS] at this; omega
      intro w hw hwS
      have hnd := hi.mdl.wkeys
      rw [e1, List.map_append, List.map_cons] at hnd
      have spent_of : ∀ w0 w', w0 ∈ m.wells → w'.1 = w0.1 → w'.2 = atLimit c.e w0.2 ((p w0.1).getD 0) → Spent c.e (s'.inner c.e s'.tstep) w' := by
        rintro w0 ⟨wk, wv⟩ hw0 hk hv
        dsimp only at hk hv
        subst hk hv
        rw [hpx w0 hw0]
        exact limit_spent he.B he.mu (hi.mdl.well w0 hw0) _
      rw [e2] at hw
      rcases List.mem_append.1 hw with hw1 | hw1
      · obtain ⟨w0, g1, g2, q, b, g3⟩ := (forall2_mem e4).1 w hw1
        have hw0 : w0 ∈ m.wells := by rw [e1]; simp [g1]
        have hne : w.1 ≠ t.1 := by
          intro hh
          have := (List.nodup_append.1 hnd).2.2 w0.1 (List.mem_map.2 ⟨w0, g1, rfl⟩) t.1 (by simp)
          exact this (g2.symm.trans hh)
        have hwS' : w0.1 ∈ S := by rw [← g2]; exact (mem_insert.1 hwS).resolve_left hne
        obtain ⟨sp1, sp2⟩ := hsp w0 hw0 hwS'
        have hcon := hP1.1 w0 w hw0 (by rw [e2]; exact hw) g2.symm sp1
        rcases g3.split with ⟨f1, -⟩ | ⟨qs, f1, -⟩
        · exact spent_of w0 w hw0 g2 f1
        · rw [f1] at hcon; simp [atTarget] at hcon
      · rcases List.mem_cons.1 hw1 with rfl | hw2
        · exact spent_of t _ ht rfl rfl
        · have hw0 : w ∈ m.wells := by rw [e1]; simp [hw2]
          have hne : w.1 ≠ t.1 := by
            intro hh
            have := (List.nodup_append.1 hnd).2.1
            rw [List.nodup_cons] at this
            exact this.1 (hh ▸ List.mem_map.2 ⟨w, hw2, rfl⟩)
          have hwS' : w.1 ∈ S := (mem_insert.1 hwS).resolve_left hne
          obtain ⟨sp1, sp2⟩ := hsp w hw0 hwS'
          exact ⟨sp1, fun qs c1 c2 => (sp2 qs c1 c2).trans (est_mono c.e w.2 (hup ⟨_, hwS'⟩ _ (idx_lt c.e (hi.mdl.wmem w hw0))) qs)⟩
  have := key ∅ (by simp) (fun _ => 0) (by simp) (by simp)
  simpa using this

/-! ## Examples -/

lemma exRun_solve (c : Ctx ℚ) (vect : Bool) (n : ℕ) (m : Mdl ℚ) (h : isOk (solve c 10 vect true (exRun c vect n m).1 (exRun c vect n m).2) = true) :
    solve c 10 vect true (exRun c vect n m).1 (exRun c vect n m).2 = .ok (exRun c vect (n + 1) m) := by
  conv_rhs => unfold exRun
  rcases hs : solve c 10 vect true (exRun c vect n m).1 (exRun c vect n m).2 with x | x
  · rw [hs] at h; simp [isOk] at h
  · rfl

/-- Does the attempt succeed with a result that satisfies `f`? -/
def attemptB (c : Ctx ℚ) (vect : Bool) (m : Mdl ℚ) (s : Sol ℚ) (f : Mdl ℚ → Sol ℚ → Bool → Bool) : Bool :=
  match attempt c vect m s with
  | .ok (m', s', again) => f m' s' again
  | .error _ => false

lemma attemptB_ok {c : Ctx ℚ} {vect : Bool} {m : Mdl ℚ} {s : Sol ℚ} {f : Mdl ℚ → Sol ℚ → Bool → Bool} (h : attemptB c vect m s f = true) :
    ∃ m' s' again, attempt c vect m s = .ok (m', s', again) ∧ f m' s' again = true := by
  unfold attemptB at h
  split at h
  · exact ⟨_, _, _, ‹_›, h⟩
  · simp at h

/-- In the third step of this run the well switches to its limit 2; its target −4 would need less. -/
example : ∃ w b l, w ∈ (exRun (exC true 0 []) true 3 exA).1.wells ∧ w.2.pwf = some b ∧ l ≤ b ∧ l = 2 ∧ w.2.qsp = some (-4) := by
  obtain ⟨w, hw, hq⟩ : ∃ w, w ∈ (exRun (exC true 0 []) true 3 exA).1.wells ∧ w.2.qsp = some (-4) ∧ w.2.pwfsp = some 2 :=
    ⟨(exRun (exC true 0 []) true 3 exA).1.wells.headD (0, {}), by decide +kernel, by decide +kernel⟩
  obtain ⟨w0, b, l, h1, h2, h3, h4, h5, h6, h7, h8, -⟩ := C45_limit exA_ready (exRun_any exA_ready true 2) (exRun_solve _ true 2 _ (by decide +kernel)) hw
  refine ⟨w, b, l, hw, h6, h8, ?_, hq.1⟩
  have : ∀ x, x ∈ exA.wells → x.2.pwfsp = some 2 := all_of (p := fun x : ℕ × Well ℚ => x.2.pwfsp = some 2) (by decide +kernel)
  rw [this w0 h1] at h3
  exact (Option.some.inj h3).symm

/-- `C46_rate_partial` and `C47_once_partial` apply to the first two steps of the same run. -/
example : ∃ m' s', Hist (exC true 0 []) Calm exA (exRun (exC true 0 []) true 1 exA).1 (exRun (exC true 0 []) true 1 exA).2 ∧
    attempt (exC true 0 []) true (exRun (exC true 0 []) true 1 exA).1 (exRun (exC true 0 []) true 1 exA).2 = .ok (m', s', false) ∧
    Calm true (exRun (exC true 0 []) true 1 exA).1 m' ∧ m'.wells ≠ [] := by
  obtain ⟨m', s', again, h1, h2⟩ := attemptB_ok (c := exC true 0 []) (vect := true) (m := (exRun (exC true 0 []) true 1 exA).1) (s := (exRun (exC true 0 []) true 1 exA).2)
    (f := fun m' _ again => !again && calmB true (exRun (exC true 0 []) true 1 exA).1 m' && decide (m'.wells.length = 1)) (by decide +kernel)
  simp only [Bool.and_eq_true, Bool.not_eq_true', decide_eq_true_eq] at h2
  obtain ⟨⟨rfl, h3⟩, h4⟩ := h2
  exact ⟨m', s', exRun_hist exA_ready (by decide +kernel), h1, calmB_calm h3, fun h => by simp [h] at h4⟩

/-- The third step is repeated once: the bound is reached. -/
example : Repeats (exC true 0 []) true exA.wells.length (exRun (exC true 0 []) true 2 exA).1 (exRun (exC true 0 []) true 2 exA).2 := by
  obtain ⟨m', s', again, h1, rfl⟩ := attemptB_ok (c := exC true 0 []) (vect := true) (m := (exRun (exC true 0 []) true 2 exA).1) (s := (exRun (exC true 0 []) true 2 exA).2)
    (f := fun _ _ again => again) (by decide +kernel)
  have : exA.wells.length = 0 + 1 := by decide +kernel
  rw [this]
  exact .succ h1 .zero

/-- **C46 fails** after a well has left its limit: reported are rate −4/11 and bottom-hole pressure 699/121 at cell pressure 820/121, where rate and drawdown
should be equal. -/
theorem C46_released_well : ∃ (c : Ctx ℚ) (m0 m : Mdl ℚ) (s : Sol ℚ), Ready c m0 ∧ Exact c.lin ∧ Hist c Any m0 m s ∧
    ∃ w b, w ∈ m.wells ∧ w.2.pwf = some b ∧ (m.reported w.1).getLast? = some (some b) ∧
      rowAt s.rates s.tstep 0 w.1 ≠ -(w.2.G.getD 0) / (c.e.mu * c.e.B) * ((rowAt s.press s.tstep none w.1).getD 0 - b) :=
  ⟨exC true 0 [], exRel, _, _, exRel_ready, cramer_exact, exRun_any exRel_ready true 2,
    (exRun (exC true 0 []) true 2 exRel).1.wells.headD (0, {}), 699 / 121, by decide +kernel, by decide +kernel, by decide +kernel, by decide +kernel⟩

/-- A well whose limit is given by a second call. -/
def exTwice : Mdl ℚ := exMdl true 0 [] (some 8) [(0, "pressure", 10)] [(2, { q := some (-4), pwf := some 2, r := some 1 }), (2, { pwf := some 3 })]

/-- **C44 fails** for the reported bottom-hole pressures of a well whose limit was given twice: one entry too many. -/
theorem C44_limit_given_twice : ∃ (c : Ctx ℚ) (m0 m : Mdl ℚ) (s : Sol ℚ) (id : ℕ), Ready c m0 ∧ Exact c.lin ∧ Hist c Any m0 m s ∧ id ∈ m0.wells.map (·.1) ∧
    s.press.length = 3 ∧ (m.reported id).length = 4 :=
  ⟨exC true 0 [], exTwice, _, _, 2, exMdl_ready (by decide +kernel), cramer_exact, exRun_any (exMdl_ready (by decide +kernel)) true 2, by decide +kernel, by decide +kernel,
    by decide +kernel⟩

lemma runE_elapsed (c : Ctx K) (fuel : ℕ) (vect : Bool) (n : ℕ) (el el' : K) (m : Mdl K) (s : Sol K) :
    (runE c fuel vect n el m s).2 = (runE c fuel vect n el' m s).2 ∧ (runE c fuel vect n el m s).1.2.tstep = (runE c fuel vect n el' m s).1.2.tstep := by
  unfold runE
  rcases runLoopE c fuel vect n m { s with nsteps := s.nsteps + n } with ⟨⟨m1, s1⟩, x | ⟨⟩⟩ <;> exact ⟨rfl, rfl⟩

/-- **C44 fails** for `ctime`: three steps of the same model can leave any value, as it is the time the machine took. -/
theorem C44_ctime_fails : ∃ (c : Ctx ℚ) (m0 : Mdl ℚ), Ready c m0 ∧ Exact c.lin ∧ ∀ v, ∃ m s, Runs c m0 m s ∧ s.tstep = 3 ∧ s.ctime = v := by
  refine ⟨exC true 0 [], exA, exA_ready, cramer_exact, fun v => ?_⟩
  have h0 : (runE (exC true 0 []) 10 true 3 0 exA (Sol.init exA)).2 = .ok () := isOk_unit (by decide +kernel)
  have hv : (runE (exC true 0 []) 10 true 3 v exA (Sol.init exA)).2 = .ok () := by rw [(runE_elapsed _ _ _ _ v 0 _ _).1]; exact h0
  refine ⟨_, _, .run 10 true 3 v .start hv, ?_, ?_⟩
  · rw [(runE_elapsed _ _ _ _ v 0 _ _).2]; decide +kernel
  · rw [(C44_counters (exC true 0 []) 10 true true 3 v exA (Sol.init exA)).2.2, if_pos hv]
    exact zero_add v

end RF.Fdm
