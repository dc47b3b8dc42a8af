import Verif.Fdm.PropsTiltStrict
import Verif.Fdm.PropsShare
/-!
# What one place gains, the others lose, on inclined reservoirs with target rates (C101)

As in PropsTiltStrict.lean, for runs in which no well changes its constraint.
-/
set_option linter.unusedSectionVars false
namespace RF.Fdm
open RF RF.Dims RF.Spec Finset

variable {K : Type} [Field K] [LinearOrder K] [IsStrictOrderedRing K]
variable {c : Ctx K} {m n m0 : Mdl K}

/-- In all recorded steps the rates of the wells are what they deliver at the recorded pressures. -/
def Delivers (c : Ctx K) (m0 : Mdl K) (s : Sol K) : Prop :=
  ∀ k, 0 < k → k ≤ s.tstep → ∀ w, w ∈ m0.wells → rowAt s.rates k 0 w.1 = bestRate c.e w.2 (s.inner c.e k (c.e.ids.idxOf w.1))

lemma solve_delivers {m m' : Mdl K} {s s' : Sol K} {vect : Bool} {f : ℕ} (hr : Ready c m0) (hh : Hist c Steady m0 m s) (hP : SolveAll c Steady f vect m s)
    (hs : solve c f vect true m s = .ok (m', s')) (hb : Delivers c m0 s) : Delivers c m0 s' := by
  obtain ⟨m1, s1, a1, a2, a3, a4, a5, a6⟩ := solve_last hr.ctx.lower hr.ctx.wf hr.started.mdl hh hP hs
  have a1 := (a1.steady hr).1
  obtain ⟨hi, hq⟩ := hr.calm a1
  have a6 := a6.calm hi.mdl
  obtain ⟨_, _, _, _, _, p, r', _, h1⟩ := attempted hr.ctx.lower hr.ctx.wf hi a5
  have he := hr.ctx.wf
  have hm0 := hr.started.mdl
  have es : s'.tstep = s.tstep + 1 := by rw [h1.tstep, a4]
  have inn : ∀ k, k ≤ s.tstep → s'.inner c.e k = s.inner c.e k := fun k hk => by
    funext j; unfold Sol.inner; rw [h1.press, rowAt_append_lt (by rw [hi.plen]; omega), a2]
  intro k h0 hk w hw
  by_cases hk' : k = s'.tstep
  · obtain ⟨w', hw', g1, g2, g3, g4⟩ := (forall2_mem hi.same.wells).2 w hw
    have hid := hm0.wmem w hw
    have hj := idx_lt c.e hid
    obtain ⟨y, hy, h7, bb, h8⟩ := (forall2_mem (h1.done rfl).1).2 w' hw'
    have hpx : (p w'.1).getD 0 = s'.inner c.e s'.tstep (c.e.ids.idxOf w.1) := by
      have := h1.inner he hi hj
      rw [this, h1.peq, g1, ← at_idx c.e hid, newRow_at he.nodup _ _ hj, at_idx c.e hid]; rfl
    rw [hpx] at h8
    have := (held_flow he.B he.mu (hm0.well w hw) (hi.mdl.well w' hw') g1 g2 g3 g4 (hr.cfg w hw) (hq.cfg w' hw') (hq.tame w' hw') h8 (a6.1 w' y hw' hy h7.symm) (a1.held hr w w' hw hw' g1.symm)
      (at_idx c.e hid).symm).2
    have hb := wOut_best hr hw (s'.inner c.e s'.tstep (c.e.ids.idxOf w.1)) (c.e.ids.idxOf w.1)
    rw [at_idx c.e hid, if_pos rfl] at hb
    rw [hk', ← hb, wOut, ← this, h1.rates, h1.tstep, rowAt_append_eq hi.rlen, g1]
  · rw [inn k (by omega), ← hb k h0 (by omega) w hw, h1.rates, rowAt_append_lt (by rw [hi.rlen]; omega), a3]

lemma runLoop_delivers {vect : Bool} {f : ℕ} (hr : Ready c m0) (N : ℕ) {m : Mdl K} {s : Sol K} (hh : Hist c Steady m0 m s) (hP : RunAll c Steady f vect N m s) (hs : (runLoop c f vect N m s).2 = .ok ())
    (hb : Delivers c m0 s) : Delivers c m0 (runLoop c f vect N m s).1.2 := by
  induction N generalizing m s with
  | zero => exact hb
  | succ N ih =>
    rcases h1 : solve c f vect true m s with x | ⟨m1, s1⟩
    · unfold runLoop at hs; rw [h1] at hs; cases hs
    have st : runLoop c f vect (N + 1) m s = runLoop c f vect N m1 s1 := by conv_lhs => unfold runLoop; rw [h1]
    rw [st] at hs ⊢
    exact ih (hh.solve hr.ctx.lower hr.ctx.wf hr.started.mdl hP.1 h1) (hP.2 _ _ h1) hs (solve_delivers hr hh hP.1 h1 hb)

/-- Rates of wells in runs in which no well changes its constraint, on level and inclined reservoirs. -/
lemma run_delivers {vect : Bool} {f N : ℕ} {el : K} (hr : Ready c m) (hP : RunAll c Steady f vect N m { Sol.init m with nsteps := (Sol.init m).nsteps + N })
    (hs : (run c f vect N el m (Sol.init m)).2 = .ok ()) : Delivers c m (run c f vect N el m (Sol.init m)).1.2 := by
  obtain ⟨e1, e2, e3⟩ := run_sol hs
  have k1 := runLoop_delivers hr N (.clock _ (Sol.init m).ctime .start) hP e1 (fun k h0 hk => absurd hk (by show ¬ k ≤ 0; omega))
  unfold run at hs ⊢
  rcases hl : runLoop c f vect N m { Sol.init m with nsteps := (Sol.init m).nsteps + N } with ⟨⟨m', s'⟩, x | ⟨⟩⟩
  · rw [hl] at hs; cases hs
  · rw [hl] at k1; exact k1

/-- **C101 (the others), inclined reservoirs, vectorised, all wells.** Two runs of the same length on the same grid, whatever the depths of its cells, the second with conditions, target rates, bottom-hole pressures and
initial pressures that are nowhere lower and with at least one of them really higher; no well changes its constraint in either run. At every step, from the first on, a well with the same settings in both has no
higher rate in the second run, and a lower one if it is held at its pressure, and less flows in over every conducting boundary face with the same given pressure in both. Missing: wells that reach their limit,
for which it is false (C101_vectorised_fails). -/
theorem C101_tilted_partial {f f' N : ℕ} {el el' : K} (hr : Ready c m) (hr' : Ready c n) (hx : Exact c.lin) (hle : AtMost m n) (han : Anchored c.e m)
    (hinit : c.e.comp = true → ∀ id, id ∈ c.e.ids → ∃ p q, m.initP id = some p ∧ n.initP id = some q ∧ p ≤ q)
    (hP : RunAll c Steady f true N m { Sol.init m with nsteps := (Sol.init m).nsteps + N }) (hP' : RunAll c Steady f' true N n { Sol.init n with nsteps := (Sol.init n).nsteps + N })
    (hs : (run c f true N el m (Sol.init m)).2 = .ok ()) (hs' : (run c f' true N el' n (Sol.init n)).2 = .ok ())
    (hR : Raise c.lower c.e true m n (run c f true N el m (Sol.init m)).1.2) :
    (∀ k, 0 < k → k ≤ N → ∀ w, w ∈ m.wells → w ∈ n.wells →
      rowAt (run c f' true N el' n (Sol.init n)).1.2.rates k 0 w.1 ≤ rowAt (run c f true N el m (Sol.init m)).1.2.rates k 0 w.1 ∧
      (w.2.con = some .pwf → rowAt (run c f' true N el' n (Sol.init n)).1.2.rates k 0 w.1 < rowAt (run c f true N el m (Sol.init m)).1.2.rates k 0 w.1)) ∧
    ∀ k, 0 < k → k ≤ N → ∀ b v id T, (b, "pressure", v) ∈ m.bdict → (b, "pressure", v) ∈ n.bdict → c.e.Face b id T → 0 < T →
      rowAt (run c f' true N el' n (Sol.init n)).1.2.rates k 0 b < rowAt (run c f true N el m (Sol.init m)).1.2.rates k 0 b := by
  have st := C100_tilted_partial hr hr' hx hle han hinit hP hP' hs hs' hR
  have be := C39_tilted_partial hr hr' hx hle han hinit hP hP' hs hs'
  have t1 : (run c f true N el m (Sol.init m)).1.2.tstep = N := by
    have := (run_tilted hr.asRates (f := f) (N := N) (el := el) hx (asRates_given m) ((run_asRates hr f N el).2.2.2 _ steady_blind hP) (by rw [(run_asRates hr f N el).2.1]; exact hs)).2.2.1
    rwa [(run_asRates hr f N el).1] at this
  have t1' := be.1.symm.trans t1
  have d := run_delivers (el := el) hr hP hs
  have d' := run_delivers (el := el') hr' hP' hs'
  have fl := run_fluxes (el := el) hr hP hs
  have fl' := run_fluxes (el := el') hr' hP' hs'
  generalize (run c f true N el m (Sol.init m)).1 = R at *
  generalize (run c f' true N el' n (Sol.init n)).1 = R' at *
  refine ⟨fun k h0 hk w hw hw' => ?_, fun k h0 hk x v id T hb hb' hF hT => ?_⟩
  · have hid := hr.started.mdl.wmem w hw
    obtain ⟨p, q, h1, h2, h3⟩ := st k h0 hk _ hid
    have e1 : R.2.inner c.e k (c.e.ids.idxOf w.1) = p := by unfold Sol.inner; rw [at_idx c.e hid, h1]; rfl
    have e2 : R'.2.inner c.e k (c.e.ids.idxOf w.1) = q := by unfold Sol.inner; rw [at_idx c.e hid, h2]; rfl
    rw [d k h0 (by omega) w hw, d' k h0 (by omega) w hw', e1, e2]
    refine ⟨best_anti hr.ctx.wf.B hr.ctx.wf.mu (hr.started.mdl.well w hw) h3.le, fun hc => ?_⟩
    unfold bestRate
    rw [hr.setup.target w hw hc]
    exact mul_lt_mul_of_pos_left (by linarith) (windex_pos hr.ctx.wf.B hr.ctx.wf.mu (hr.started.mdl.well w hw))
  · obtain ⟨p, q, h1, h2, h3⟩ := st k h0 hk id (face_inner hr hb hF)
    rw [fl k h0 (by omega) x v id T hb hF, fl' k h0 (by omega) x v id T hb' hF, h1, h2, Option.getD_some, Option.getD_some]
    exact mul_lt_mul_of_pos_left (by linarith) (by linarith)

/-- **C101 (the place itself), inclined reservoirs, vectorised, all wells.** Raise given pressures by at most `δ`, rates being the same; no well changes its constraint in either run. Then no less flows in where the
given pressure is higher by `δ`, whatever the depths of the cells. -/
theorem C101_tilted_own_partial {δ : K} {f f' N : ℕ} {el el' : K} (hr : Ready c m) (hr' : Ready c n) (hx : Exact c.lin) (hd : Within δ m n) (han : Anchored c.e m) (han' : Anchored c.e n)
    (hinit : c.e.comp = true → ∀ id, id ∈ c.e.ids → ∃ p q, m.initP id = some p ∧ n.initP id = some q ∧ |p - q| ≤ δ)
    (hP : RunAll c Steady f true N m { Sol.init m with nsteps := (Sol.init m).nsteps + N }) (hP' : RunAll c Steady f' true N n { Sol.init n with nsteps := (Sol.init n).nsteps + N })
    (hs : (run c f true N el m (Sol.init m)).2 = .ok ()) (hs' : (run c f' true N el' n (Sol.init n)).2 = .ok ()) :
    (∀ k, 0 < k → k ≤ N → ∀ id w w' p, (id, w) ∈ m.wells → (id, w') ∈ n.wells → w.qsp = none → w.pwfsp = some p → w'.pwfsp = some (p + δ) →
      rowAt (run c f true N el m (Sol.init m)).1.2.rates k 0 id ≤ rowAt (run c f' true N el' n (Sol.init n)).1.2.rates k 0 id) ∧
    ∀ k, 0 < k → k ≤ N → ∀ b v id T, (b, "pressure", v) ∈ m.bdict → (b, "pressure", v + δ) ∈ n.bdict → c.e.Face b id T →
      rowAt (run c f true N el m (Sol.init m)).1.2.rates k 0 b ≤ rowAt (run c f' true N el' n (Sol.init n)).1.2.rates k 0 b := by
  have cl := C68_tilted_partial hr hr' hx hd han han' hinit hP hP' hs hs'
  have t1 : (run c f true N el m (Sol.init m)).1.2.tstep = N := by
    have := (run_tilted hr.asRates (f := f) (N := N) (el := el) hx (asRates_given m) ((run_asRates hr f N el).2.2.2 _ steady_blind hP) (by rw [(run_asRates hr f N el).2.1]; exact hs)).2.2.1
    rwa [(run_asRates hr f N el).1] at this
  have t1' := cl.1.symm.trans t1
  have d := run_delivers (el := el) hr hP hs
  have d' := run_delivers (el := el') hr' hP' hs'
  have fl := run_fluxes (el := el) hr hP hs
  have fl' := run_fluxes (el := el') hr' hP' hs'
  generalize (run c f true N el m (Sol.init m)).1 = R at *
  generalize (run c f' true N el' n (Sol.init n)).1 = R' at *
  refine ⟨fun k h0 hk id w w' p0 hw hw' hq hp hp' => ?_, fun k h0 hk x v id T hb hb' hF => ?_⟩
  · have hid := hr.started.mdl.wmem _ hw
    obtain ⟨p, q, h1, h2, h3⟩ := cl.2 k (by omega) (.inr h0) _ hid
    obtain ⟨v', hv', H⟩ := (forall2_mem hd.well).2 _ hw
    have : v' = (id, w') := eq_of_key hr'.started.mdl.wkeys hv' hw' H.1
    subst this
    have hq' : w'.qsp = none := H.2.2.1.trans hq
    have e1 : R.2.inner c.e k (c.e.ids.idxOf id) = p := by unfold Sol.inner; rw [at_idx c.e hid, h1]; rfl
    have e2 : R'.2.inner c.e k (c.e.ids.idxOf id) = q := by unfold Sol.inner; rw [at_idx c.e hid, h2]; rfl
    rw [d k h0 (by omega) _ hw, d' k h0 (by omega) _ hw', e1, e2]
    have hg : windex c.e w' = windex c.e w := by unfold windex; rw [show w'.G = w.G from H.2.1]
    unfold bestRate
    dsimp only
    rw [hq, hq', hg, hp, hp']
    exact mul_le_mul_of_nonneg_left (by simp only [Option.getD_some]; linarith [(abs_le.1 h3).1]) (windex_pos hr.ctx.wf.B hr.ctx.wf.mu (hr.started.mdl.well _ hw)).le
  · obtain ⟨p, q, h1, h2, h3⟩ := cl.2 k (by omega) (.inr h0) id (face_inner hr hb hF)
    rw [fl k h0 (by omega) x v id T hb hF, fl' k h0 (by omega) x _ id T hb' hF, h1, h2, Option.getD_some, Option.getD_some]
    exact mul_le_mul_of_nonneg_left (by linarith [(abs_le.1 h3).1]) (by linarith [face_nonneg hr hb hF])

/-- On the slope, with the target rate of the well raised: less flows in on the left. -/
example : ∀ k, 0 < k → k ≤ 2 → rowAt (exSteepRun 8 10 (-1) (-90) 2).rates k 0 0 < rowAt (exSteepRun 8 10 (-2) (-90) 2).rates k 0 0 := fun k h0 hk =>
  (C101_tilted_partial (f := 10) (f' := 10) (N := 2) (el := 0) (el' := 0) (m := exSteep 8 10 (-2) (-90)) (n := exSteep 8 10 (-1) (-90)) (exMdl_ready (by decide +kernel))
    (exMdl_ready (by decide +kernel)) cramer_exact ⟨by decide +kernel, by decide +kernel⟩ (.inl (by decide +kernel))
    (fun _ id hid => ⟨8, 8, all_of (p := fun id => (exSteep 8 10 (-2) (-90)).initP id = some 8) (by decide +kernel) id hid,
      all_of (p := fun id => (exSteep 8 10 (-1) (-90)).initP id = some 8) (by decide +kernel) id hid, le_rfl⟩)
    (runSteadyB_all (by decide +kernel)) (runSteadyB_all (by decide +kernel)) (isOk_unit (by decide +kernel)) (isOk_unit (by decide +kernel))
    (.rate 2 ((exSteep 8 10 (-2) (-90)).wells.getD 0 (0, {})).2 ((exSteep 8 10 (-1) (-90)).wells.getD 0 (0, {})).2 (-2) (-1) (by decide +kernel) (by decide +kernel) (by decide +kernel)
      (by decide +kernel) (by norm_num) (fun k h0 hk => by have hk : k ≤ 2 := le_of_le_of_eq hk (by decide +kernel); interval_cases k <;> decide +kernel))).2 k h0 hk 0 10 1 1 (by decide +kernel) (by decide +kernel) (by unfold Env.Face; decide +kernel) (by norm_num)

/-- On the slope, with the pressure on the left raised by 2: no less flows in there. -/
example : ∀ k, 0 < k → k ≤ 2 → rowAt (exSteepRun 8 10 (-2) (-90) 2).rates k 0 0 ≤ rowAt (exSteepRun 8 12 (-2) (-90) 2).rates k 0 0 := fun k h0 hk =>
  (C101_tilted_own_partial (δ := 2) (f := 10) (f' := 10) (N := 2) (el := 0) (el' := 0) (m := exSteep 8 10 (-2) (-90)) (n := exSteep 8 12 (-2) (-90)) (exMdl_ready (by decide +kernel))
    (exMdl_ready (by decide +kernel)) cramer_exact ⟨by decide +kernel, by decide +kernel⟩ (.inl (by decide +kernel)) (.inl (by decide +kernel))
    (fun _ id hid => ⟨8, 8, all_of (p := fun id => (exSteep 8 10 (-2) (-90)).initP id = some 8) (by decide +kernel) id hid,
      all_of (p := fun id => (exSteep 8 12 (-2) (-90)).initP id = some 8) (by decide +kernel) id hid, by norm_num⟩)
    (runSteadyB_all (by decide +kernel)) (runSteadyB_all (by decide +kernel)) (isOk_unit (by decide +kernel)) (isOk_unit (by decide +kernel))).2 k h0 hk 0 10 1 1 (by decide +kernel) (by decide +kernel)
    (by unfold Env.Face; decide +kernel)

end RF.Fdm
