import Verif.Fdm.Calm
/-!
# The recorded rates balance the recorded pressures
-/
set_option linter.unusedSectionVars false
namespace RF.Fdm
open RF RF.Dims Finset

variable {K : Type} [Field K] [LinearOrder K] [IsStrictOrderedRing K]

/-! ### calls of `solve` and `run` as histories -/

lemma back_attempted {c : Ctx K} {vect again : Bool} {m0 m m' : Mdl K} {s s' : Sol K} {m1 s1 A d x p r' ps} (hi : Inv c.e m0 m s)
    (ha : Attempted c vect m0 m m' s s' again m1 s1 A d x p r' ps) :
    s'.back.press = s.press ∧ s'.back.rates = s.rates ∧ s'.back.tstep = s.tstep := by
  refine ⟨?_, ?_, ?_⟩
  · show s'.press.take s'.tstep = _
    rw [ha.press, ha.tstep, ← hi.plen, List.take_left']; rfl
  · show s'.rates.take s'.tstep = _
    rw [ha.rates, ha.tstep, ← hi.rlen, List.take_left']; rfl
  · show s'.tstep - 1 = _
    rw [ha.tstep]; rfl

/-- A successful `solve` ends with an accepted attempt at a state with the same tables. -/
theorem solve_last {c : Ctx K} (hl : LowerOK c.lower) (he : c.e.WF) {P : Bool → Mdl K → Mdl K → Prop} {m0 : Mdl K} (h0 : MdlOK c.e m0) {fuel : ℕ} {vect : Bool}
    {m m' : Mdl K} {s s' : Sol K} (h : Hist c P m0 m s) (hP : SolveAll c P fuel vect m s) (hs : solve c fuel vect true m s = .ok (m', s')) :
    ∃ m1 s1, Hist c P m0 m1 s1 ∧ s1.press = s.press ∧ s1.rates = s.rates ∧ s1.tstep = s.tstep ∧ attempt c vect m1 s1 = .ok (m', s', false) ∧ P vect m1 m' := by
  induction fuel generalizing m s with
  | zero => simp [solve] at hs
  | succ fuel ih =>
    unfold solve at hs
    simp only [if_true] at hs
    rw [ok_bind] at hs
    obtain ⟨⟨m1, s1, again⟩, ha, hs⟩ := hs
    dsimp only at hs
    obtain ⟨p1, p2⟩ := hP m1 s1 again ha
    cases again
    · simp only [Bool.false_eq_true, if_false, ok_pure, Prod.mk.injEq] at hs
      obtain ⟨rfl, rfl⟩ := hs
      exact ⟨m, s, h, rfl, rfl, rfl, ha, p1⟩
    · simp only [if_true] at hs
      obtain ⟨_, _, _, _, _, _, _, _, hat⟩ := attempted hl he (h.inv hl he h0) ha
      obtain ⟨b1, b2, b3⟩ := back_attempted (h.inv hl he h0) hat
      obtain ⟨m2, s2, g1, g2, g3, g4, g5, g6⟩ := ih (.again h ha p1) (p2 rfl) hs
      exact ⟨m2, s2, g1, g2.trans b1, g3.trans b2, g4.trans b3, g5, g6⟩

theorem Hist.solve {c : Ctx K} (hl : LowerOK c.lower) (he : c.e.WF) {P : Bool → Mdl K → Mdl K → Prop} {m0 : Mdl K} (h0 : MdlOK c.e m0) {fuel : ℕ} {vect : Bool}
    {m m' : Mdl K} {s s' : Sol K} (h : Hist c P m0 m s) (hP : SolveAll c P fuel vect m s) (hs : solve c fuel vect true m s = .ok (m', s')) : Hist c P m0 m' s' := by
  obtain ⟨m1, s1, h1, -, -, -, h2, h3⟩ := solve_last hl he h0 h hP hs
  exact .step h1 h2 h3

lemma runLoop_hist {c : Ctx K} (hl : LowerOK c.lower) (he : c.e.WF) {P : Bool → Mdl K → Mdl K → Prop} {m0 : Mdl K} (h0 : MdlOK c.e m0) {fuel : ℕ} {vect : Bool}
    (n : ℕ) {m : Mdl K} {s : Sol K} (h : Hist c P m0 m s) (hP : RunAll c P fuel vect n m s) :
    Hist c P m0 (runLoop c fuel vect n m s).1.1 (runLoop c fuel vect n m s).1.2 := by
  induction n generalizing m s with
  | zero => exact h
  | succ n ih =>
    unfold runLoop
    rcases hs : Fdm.solve c fuel vect true m s with x | ⟨m1, s1⟩
    · exact h
    · exact ih (h.solve hl he h0 hP.1 hs) (hP.2 m1 s1 hs)

/-- The state after `run` belongs to the histories. -/
theorem Hist.run {c : Ctx K} (hl : LowerOK c.lower) (he : c.e.WF) {P : Bool → Mdl K → Mdl K → Prop} {m0 : Mdl K} (h0 : MdlOK c.e m0) {fuel : ℕ} {vect : Bool}
    (n : ℕ) (el : K) {m : Mdl K} {s : Sol K} (h : Hist c P m0 m s) (hP : RunAll c P fuel vect n m { s with nsteps := s.nsteps + n }) :
    Hist c P m0 (run c fuel vect n el m s).1.1 (run c fuel vect n el m s).1.2 := by
  have hh := runLoop_hist hl he h0 n (m := m) (s := { s with nsteps := s.nsteps + n }) (.clock (s.nsteps + n) s.ctime h) hP
  unfold Fdm.run
  rcases hr : runLoop c fuel vect n m { s with nsteps := s.nsteps + n } with ⟨⟨m1, s1⟩, x | ⟨⟩⟩
  · rw [hr] at hh; exact hh
  · rw [hr] at hh; exact .clock s1.nsteps (s1.ctime + el) hh

/-! ### recorded rates -/

/-- The rates stored at the start are those of the boundary conditions in force: none elsewhere. -/
def NoLeftover (m : Mdl K) : Prop := ∀ id, id ∉ m.bdict.map (·.1) → m.initR id = 0

/-- The rate stored for a condition other than a pressure is the given value (true for rates, not for gradients). -/
def RatesGiven (m : Mdl K) : Prop := ∀ b, b ∈ m.bdict → b.2.1 ≠ "pressure" → m.initR b.1 = b.2.2

/-- The well flow in the equations is the recorded rate. -/
lemma done_flow {e : Env K} (hB : 0 < e.B) (hmu : 0 < e.mu) {w w' : Well K} (hw : WellOK w) (hc : w.con ≠ none) (ht : w.con = some .q → w.q = w.qsp)
    {p q b : K} (hd : WellDone e p w w' q b) (hr : w.con = some .pwf → w'.con = some .pwf) : wellFlow e w p = q ∧ wellFlow e w' p = q := by
  obtain ⟨G, hG, hG0⟩ := hw.G
  cases hd with
  | limit h1 h2 =>
    have h' : wellFlow e (atLimit e w p) p = windex e w * (w.pwfsp.getD 0 - p) := rfl
    refine ⟨?_, h'⟩
    rcases hcon : w.con with _ | _ | _
    · exact absurd hcon hc
    · have hqsp := ht hcon
      rcases hqs : w.qsp with _ | qs
      · exact absurd hcon (hw.free hqs).2
      · rw [hqs] at hqsp
        have h3 : estPwf e w p qs = w.pwfsp.getD 0 := by
          refine le_antisymm (h1 qs hqs) (not_lt.1 fun hlt => h2 qs hqs hlt hqsp)
        unfold wellFlow
        rw [hcon, hqsp]
        dsimp only [Option.getD_some]
        rw [← h3]; unfold estPwf windex; rw [hG, Option.getD_some]
        field_simp; ring
    · unfold wellFlow windex
      rw [hcon, hw.lim hcon]
  | target qs hq h =>
    have hcon : w.con = some .q := by
      rcases hcon : w.con with _ | _ | _
      · exact absurd hcon hc
      · rfl
      · have := hr hcon; simp [atTarget] at this
    refine ⟨?_, rfl⟩
    unfold wellFlow; rw [hcon]

lemma behind_of_face {e : Env K} {b id : ℕ} {T : K} (h : e.Face b id T) : e.behind b = some id := by
  unfold Env.behind; rw [show e.transC b false = _ from h]

lemma sum_over_keys {α : Type} {d : List (ℕ × α)} (hk : (d.map (·.1)).Nodup) {l : List ℕ} (hl : l.Nodup) (hs : ∀ x, x ∈ d → x.1 ∈ l) (f : ℕ → K)
    (hz : ∀ b, b ∈ l → b ∉ d.map (·.1) → f b = 0) : (d.map fun x => f x.1).sum = (l.map f).sum := by
  have e1 : (d.map fun x => f x.1) = (d.map (·.1)).map f := by rw [List.map_map]; rfl
  rw [e1, ← List.sum_toFinset f hk, ← List.sum_toFinset f hl]
  refine sum_subset (fun b hb => ?_) (fun b hb hb' => ?_)
  · rw [List.mem_toFinset] at hb ⊢
    obtain ⟨x, hx, rfl⟩ := List.mem_map.1 hb
    exact hs x hx
  · exact hz b (List.mem_toFinset.1 hb) (fun h => hb' (List.mem_toFinset.2 h))

/-- **Recorded balance**, for any solver: the row of rates recorded for an accepted step misses the balance of a cell by what the pressures miss its equation. -/
theorem recorded_excess {c : Ctx K} (hc : CtxOK c) {m0 m m' : Mdl K} {s s' : Sol K} {vect : Bool} (hi : Inv c.e m0 m s)
    (hq : QInv c.lower c.e m s) (hn : NoLeftover m0) (hg : vect = false → RatesGiven m0)
    (hP : Calm vect m m') (ha : attempt c vect m s = .ok (m', s', false)) {i : ℕ} (hin : i < c.e.n) :
    flowIn c.e (c.e.trans vect) (s'.inner c.e s'.tstep) i + recordedIn c.e (rowAt s'.rates s'.tstep 0) i =
      c.e.rhs (c.e.at i) * (s'.inner c.e s'.tstep i - s.inner c.e s.tstep i) +
        excess c.e (c.e.trans vect) m (usedRate vect m s) (s.inner c.e s.tstep) (s'.inner c.e s'.tstep) i := by
  obtain ⟨m1, s1, A, d, x, p, r', ps, h⟩ := attempted hc.lower hc.wf hi ha
  have he := hc.wf
  have hxi : s'.inner c.e s'.tstep i = x i := h.inner he hi hin
  have hrow : rowAt s'.rates s'.tstep 0 = r' := by rw [h.rates, h.tstep, rowAt_append_eq hi.rlen]
  obtain ⟨hdone, -⟩ := h.done rfl
  have hpid : ∀ id, id ∈ c.e.ids → (p id).getD 0 = x (c.e.ids.idxOf id) := by
    intro id hid; rw [h.peq, newRow_mem hid]; rfl
  -- rates that are not touched
  have hkeep : ∀ k, k ∉ m0.bUpdate → k ∉ m0.wells.map (·.1) → r' k = m0.initR k := by
    intro k h1 h2
    rw [h.keep k (by rw [hi.same.upd]; exact h1) (by rw [hi.same.wells.keys]; exact h2)]
    exact hi.row _ le_rfl k h1 h2
  have hbw : ∀ k, k ∈ c.e.bnd → k ∉ m0.wells.map (·.1) := by
    intro k hk hw
    rw [← hi.same.wells.keys] at hw
    obtain ⟨y, hy, rfl⟩ := List.mem_map.1 hw
    exact he.disj _ hk (hi.mdl.wmem y hy)
  have hupd : ∀ k, k ∈ m0.bUpdate → k ∈ m0.bdict.map (·.1) := by
    intro k hk
    rw [← hi.same.upd] at hk
    obtain ⟨v, hv⟩ := upd_pressure hi.mdl hk
    rw [← hi.same.bdict]
    exact List.mem_map.2 ⟨_, mem_of_dictGet hv, rfl⟩
  -- wells
  have hwell : (m.wells.map (wellIn c.e (x i) i)).sum = r' (c.e.at i) := by
    rw [well_sum hi.mdl]
    rcases dictGet_move (R := fun k w w' => ∃ b, WellDone c.e ((p k).getD 0) w w' (r' k) b) hdone (c.e.at i) with ⟨g1, -⟩ | ⟨w, w', g1, g2, b, hd⟩
    · rw [g1]
      have h1 : c.e.at i ∉ m.wells.map (·.1) := by
        intro hmem
        obtain ⟨y, hy, hy'⟩ := List.mem_map.1 hmem
        have := dictGet_of_mem hi.mdl.wkeys hy
        rw [hy', g1] at this; simp at this
      have h2 : c.e.at i ∉ m0.bdict.map (·.1) := by
        intro hmem
        rw [← hi.same.bdict] at hmem
        obtain ⟨y, hy, hy'⟩ := List.mem_map.1 hmem
        exact he.disj _ (hi.mdl.bmem y hy) (hy' ▸ at_mem c.e hin)
      rw [hkeep _ (fun hu => h2 (hupd _ hu)) (by rw [← hi.same.wells.keys]; exact h1), hn _ h2]; rfl
    · rw [g1]
      have hm := mem_of_dictGet g1
      have hm' := mem_of_dictGet g2
      rw [hpid _ (at_mem c.e hin), idx_at c.e he.nodup hin] at hd
      exact (done_flow he.B he.mu (hi.mdl.well _ hm) (hq.cfg _ hm) (hq.tame _ hm) hd (hP.1 _ _ hm hm' rfl)).1
  -- boundaries
  have hbnd : (m.bdict.map (boundaryIn c.e (usedRate vect m s) (x i) i)).sum = (c.e.bnd.map fun b => if c.e.behind b = some (c.e.at i) then r' b else 0).sum := by
    rw [← sum_over_keys hi.mdl.bkeys he.bnodup hi.mdl.bmem (fun b => if c.e.behind b = some (c.e.at i) then r' b else 0)]
    · congr 1
      refine List.map_congr_left fun b hbm => ?_
      have hbb := hi.mdl.bmem b hbm
      rcases he.face b.1 hbb with hF | ⟨id, T, hid, -, hF⟩
      · unfold boundaryIn Env.behind; rw [hF]; simp
      · unfold boundaryIn
        rw [show c.e.transC b.1 false = _ from hF, behind_of_face hF]
        dsimp only
        by_cases hat : id = c.e.at i
        · rw [if_pos hat, if_pos (show some id = some (c.e.at i) by rw [hat])]
          by_cases hp : b.2.1 = "pressure"
          · rw [if_pos hp]
            obtain ⟨id', T', hF', hr⟩ := h.bound b.1 (upd_of_mem hi.mdl hbm hp)
            have := (show c.e.transC b.1 false = _ from hF).symm.trans hF'
            simp only [Except.ok.injEq, List.cons.injEq, Prod.mk.injEq, and_true] at this
            obtain ⟨rfl, rfl⟩ := this
            rw [hr, bTerm_pressure hc.lower (v := b.2.2) (by rw [dictGet_of_mem hi.mdl.bkeys hbm, ← hp]), hpid id hid]
            have : c.e.ids.idxOf id = i := by rw [hat]; exact idx_at c.e he.nodup hin
            rw [this]
            simp only [Aff.smul, Aff.sub, Aff.c]; ring
          · rw [if_neg hp]
            have hnu : b.1 ∉ m.bUpdate := by
              intro hu
              obtain ⟨v, hv⟩ := upd_pressure hi.mdl hu
              rw [dictGet_of_mem hi.mdl.bkeys hbm] at hv
              simp only [Option.some.injEq] at hv
              exact hp (by rw [hv])
            have hr := hkeep b.1 (by rw [← hi.same.upd]; exact hnu) (hbw _ hbb)
            unfold usedRate
            cases vect
            · simp only [Bool.false_eq_true, if_false]
              rw [hr, hg rfl b (by rw [← hi.same.bdict]; exact hbm) hp]
              unfold givenRate; rw [dictGet_of_mem hi.mdl.bkeys hbm]; rfl
            · simp only [if_true]
              rw [h.keep b.1 hnu (by rw [hi.same.wells.keys]; exact hbw _ hbb)]
        · rw [if_neg hat, if_neg (by simpa using hat)]
    · intro b hb hbk
      have : r' b = 0 := by
        rw [hi.same.bdict] at hbk
        rw [hkeep b (fun hu => hbk (hupd _ hu)) (hbw _ hb), hn _ hbk]
      rw [this]; simp
  unfold excess outsideIn
  rw [hxi, hwell, hbnd]
  unfold flowIn recordedIn
  rw [hrow, hxi]
  ring

/-- **Recorded balance.** The row of rates recorded for an accepted step balances every cell: flow from the other cells at the new
pressures plus recorded rates is the change of the stored volume. -/
theorem recorded_balance {c : Ctx K} (hc : CtxOK c) (hx : Exact c.lin) {m0 m m' : Mdl K} {s s' : Sol K} {vect : Bool} (hi : Inv c.e m0 m s)
    (hq : QInv c.lower c.e m s) (hf : vect = true → c.e.Flat) (hn : NoLeftover m0) (hg : vect = false → RatesGiven m0)
    (hP : Calm vect m m') (ha : attempt c vect m s = .ok (m', s', false)) {i : ℕ} (hin : i < c.e.n) :
    flowIn c.e (c.e.trans vect) (s'.inner c.e s'.tstep) i + recordedIn c.e (rowAt s'.rates s'.tstep 0) i =
      c.e.rhs (c.e.at i) * (s'.inner c.e s'.tstep i - s.inner c.e s.tstep i) := by
  rw [recorded_excess hc hi hq hn hg hP ha hin, step_balance hc hx hi hq hf hP.2 ha i hin, add_zero]

end RF.Fdm
