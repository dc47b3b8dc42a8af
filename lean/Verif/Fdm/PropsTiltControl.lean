import Verif.Fdm.PropsTiltIdle
/-!
# Rate and pressure control on inclined reservoirs (C99)

As in PropsTiltIdle.lean: no well changes its constraint during the runs, and a well with a target rate remains when others are held at their pressures.
-/
set_option linter.unusedSectionVars false
namespace RF.Fdm
open RF RF.Dims RF.Spec Finset

variable {K : Type} [Field K] [LinearOrder K] [IsStrictOrderedRing K]
variable {c : Ctx K} {m m' : Mdl K}

lemma control_history_tilted (hr : Ready c m) (hr' : Ready c m') (hx : Exact c.lin) (hg : RatesGiven m) (hg' : RatesGiven m') (han : Anchored c.e m)
    (hq : (∃ w, w ∈ m.wells ∧ w.2.con = some .q) ↔ ∃ w, w ∈ m'.wells ∧ w.2.con = some .q)
    {f f' N : ℕ} {t t' : K} (hN : N = 1 ∨ c.e.comp = false) (hP : RunAll c Steady f true N m { Sol.init m with nsteps := (Sol.init m).nsteps + N })
    (hP' : RunAll c Steady f' true N m' { Sol.init m' with nsteps := (Sol.init m').nsteps + N })
    (hs : (run c f true N t m (Sol.init m)).2 = .ok ()) (hs' : (run c f' true N t' m' (Sol.init m')).2 = .ok ())
    (hm : Met m (run c f true N t m (Sol.init m)).1.2) (h : Traded c.e (fun id => ((run c f true N t m (Sol.init m)).1.1.reported id).getLastD none) m m') :
    (run c f true N t m (Sol.init m)).1.2.tstep = N ∧ (run c f' true N t' m' (Sol.init m')).1.2.tstep = N ∧
    (∀ k, k ≤ N → ∀ id, id ∈ c.e.ids → rowAt (run c f true N t m (Sol.init m)).1.2.press k none id = rowAt (run c f' true N t' m' (Sol.init m')).1.2.press k none id) ∧
    ∀ k, 0 < k → k ≤ N → ∀ w, w ∈ m.wells → rowAt (run c f true N t m (Sol.init m)).1.2.rates k 0 w.1 = rowAt (run c f' true N t' m' (Sol.init m')).1.2.rates k 0 w.1 := by
  obtain ⟨b, n, t1, i⟩ := run_tilted (el := t) hr hx hg hP hs
  obtain ⟨b', n', t1', i'⟩ := run_tilted (el := t') hr' hx hg' hP' hs'
  have dl := run_delivers (el := t) hr hP hs
  have dl' := run_delivers (el := t') hr' hP' hs'
  have rp := ((Hist.run hr.ctx.lower hr.ctx.wf hr.started.mdl N t .start hP).steady hr).1.reports hr
  generalize (run c f true N t m (Sol.init m)).1 = R at *
  generalize (run c f' true N t' m' (Sol.init m')).1 = R' at *
  have he := hr.ctx.wf
  -- in the first run all steps are like the last one
  have same : ∀ k, k < N → ∀ j, j < c.e.n → R.2.inner c.e (k + 1) j = R.2.inner c.e N j := fun k hk j hj => by
    rcases hN with rfl | hc
    · obtain rfl : k = 0 := by omega
      rfl
    · obtain ⟨N', rfl⟩ : ∃ N', N = N' + 1 := ⟨N - 1, by omega⟩
      refine same_residue hr han (o := R.2.inner c.e N') (o' := R.2.inner c.e N') (fun _ _ => rfl) (fun j hj => ?_) j hj
      have e1 : residue c.e (c.e.trans true) m (R.2.inner c.e N') (R.2.inner c.e (k + 1)) j = residue c.e (c.e.trans true) m (R.2.inner c.e k) (R.2.inner c.e (k + 1)) j := by
        unfold residue; simp only [he.rhsI hc, zero_mul]
      rw [e1, eq_neg_of_add_eq_zero_left (b k (by omega) j hj), eq_neg_of_add_eq_zero_left (b N' (by omega) j hj)]
  -- what a traded well delivers at the pressures of the first run
  have trade : ∀ k, k < N → ∀ w w' : ℕ × Well K, w ∈ m.wells → w.2.con = some .q → w'.2.G = w.2.G → w'.2.pwfsp = (R.1.reported w.1).getLastD none →
      windex c.e w'.2 * (w'.2.pwfsp.getD 0 - R.2.inner c.e (k + 1) (c.e.ids.idxOf w.1)) = rowAt R.2.rates (k + 1) 0 w.1 := fun k hk w w' hw h1 h4 h5 => by
    have hid := hr.started.mdl.wmem w hw
    have hj := idx_lt c.e hid
    have hqk := hm (k + 1) (by omega) (by omega) w hw h1
    have hqN := hm N (by omega) (by omega) w hw h1
    obtain ⟨N', rfl⟩ : ∃ N', N = N' + 1 := ⟨N - 1, by omega⟩
    have hn := n (N' + 1) (by omega) (by omega) _ hj
    rw [at_idx c.e hid] at hn
    have hlast : (R.1.reported w.1).getLastD none = some (holePressure c.e w.2 (R.2.inner c.e (N' + 1) (c.e.ids.idxOf w.1)) (rowAt R.2.rates (N' + 1) 0 w.1)) := by
      rw [rp w hw, t1, List.range_succ, List.map_append, List.map_cons, List.map_nil, ← List.append_assoc, List.getLastD_concat, hn]
      rfl
    have hG : windex c.e w'.2 = windex c.e w.2 := by unfold windex; rw [h4]
    have hpos := windex_pos he.B he.mu (hr.started.mdl.well w hw)
    have hqq : rowAt R.2.rates (N' + 1) 0 w.1 = rowAt R.2.rates (k + 1) 0 w.1 := Option.some.inj (hqN.symm.trans hqk)
    rw [h5, hlast, hG, same k hk _ hj, hqq]
    dsimp only [Option.getD_some]
    unfold holePressure
    field_simp
    ring
  have res : ∀ k, k < N → ∀ j, j < c.e.n → residue c.e (c.e.trans true) m' (R.2.inner c.e k) (R.2.inner c.e (k + 1)) j = residue c.e (c.e.trans true) m (R.2.inner c.e k) (R.2.inner c.e (k + 1)) j := fun k hk j hj => by
    unfold residue
    rw [h.bdict, sum_forall2_mem (f := wIn c.e (R.2.inner c.e (k + 1) j) j) (g := wIn c.e (R.2.inner c.e (k + 1) j) j) h.wells fun w w' hw H => ?_]
    rcases H with rfl | ⟨h1, h2, h3, h4, h5⟩
    · rfl
    unfold wIn
    rw [h2]
    by_cases hwj : w.1 = c.e.at j
    · rw [if_pos hwj, if_pos hwj, h1, h3]
      have hj' : c.e.ids.idxOf w.1 = j := by rw [hwj]; exact idx_at c.e he.nodup hj
      have := trade k hk w w' hw h1 h4 h5
      rw [hj'] at this
      dsimp only
      rw [this, hm (k + 1) (by omega) (by omega) w hw h1]
      rfl
    · rw [if_neg hwj, if_neg hwj]
  have key : ∀ k, k ≤ N → ∀ j, j < c.e.n → R.2.inner c.e k j = R'.2.inner c.e k j := by
    intro k
    induction k with
    | zero =>
      intro _ j hj
      unfold Sol.inner
      rw [i, i', h.initP _ (at_mem c.e hj)]
    | succ k ih =>
      intro hk
      refine same_residue hr' (h.anchored han) (fun j hj => ih (by omega) j hj) fun j hj => ?_
      rw [res k (by omega) j hj, eq_neg_of_add_eq_zero_left (b k (by omega) j hj), eq_neg_of_add_eq_zero_left (b' k (by omega) j hj), headGap_congr hq]
  refine ⟨t1, t1', fun k hk id hid => ?_, fun k h0 hk w hw => ?_⟩
  · rcases Nat.eq_zero_or_pos k with rfl | h0
    · rw [i, i', h.initP _ hid]
    have h1 := n k h0 (by omega) _ (idx_lt c.e hid)
    have h2 := n' k h0 (by omega) _ (idx_lt c.e hid)
    rw [at_idx c.e hid] at h1 h2
    rw [h1, h2, key k hk _ (idx_lt c.e hid)]
  · obtain ⟨w', hw', H⟩ := (forall2_mem h.wells).2 w hw
    obtain ⟨k, rfl⟩ : ∃ k', k = k' + 1 := ⟨k - 1, by omega⟩
    have hid := idx_lt c.e (hr.started.mdl.wmem w hw)
    rcases H with rfl | ⟨h1, h2, h3, h4, h5⟩
    · rw [dl (k + 1) h0 (by omega) _ hw, dl' (k + 1) h0 (by omega) _ hw', key (k + 1) hk _ hid]
    · have := dl' (k + 1) h0 (by omega) w' hw'
      rw [h2, ← key (k + 1) hk _ hid] at this
      rw [this]
      unfold bestRate
      rw [hr'.setup.target w' hw' h3]
      exact (trade k (by omega) w w' hw h1 h4 h5).symm

/-- **C99, inclined reservoirs, vectorised.** A run of `N` steps in which the wells meet their target rates, on a grid with cells at any depths; a second model in which some of these wells are held at the bottom-hole
pressure reported for them in the last step instead, and at least one well with a target rate remains. No well changes its constraint. If there is one step, or the fluid is incompressible, then the second run gives the
same pressures of all cells and the same rates of all wells, at every step. Where no target rate remains it is false (C99_vectorised_fails). -/
theorem C99_tilted_partial (hr : Ready c m) (hr' : Ready c m') (hx : Exact c.lin) (han : Anchored c.e m)
    (hq : (∃ w, w ∈ m.wells ∧ w.2.con = some .q) ↔ ∃ w, w ∈ m'.wells ∧ w.2.con = some .q)
    {f f' N : ℕ} {t t' : K} (hN : N = 1 ∨ c.e.comp = false) (hP : RunAll c Steady f true N m { Sol.init m with nsteps := (Sol.init m).nsteps + N })
    (hP' : RunAll c Steady f' true N m' { Sol.init m' with nsteps := (Sol.init m').nsteps + N })
    (hs : (run c f true N t m (Sol.init m)).2 = .ok ()) (hs' : (run c f' true N t' m' (Sol.init m')).2 = .ok ())
    (hm : Met m (run c f true N t m (Sol.init m)).1.2) (h : Traded c.e (fun id => ((run c f true N t m (Sol.init m)).1.1.reported id).getLastD none) m m') :
    (run c f true N t m (Sol.init m)).1.2.tstep = N ∧ (run c f' true N t' m' (Sol.init m')).1.2.tstep = N ∧
    (∀ k, k ≤ N → ∀ id, id ∈ c.e.ids → rowAt (run c f true N t m (Sol.init m)).1.2.press k none id = rowAt (run c f' true N t' m' (Sol.init m')).1.2.press k none id) ∧
    ∀ k, 0 < k → k ≤ N → ∀ w, w ∈ m.wells → rowAt (run c f true N t m (Sol.init m)).1.2.rates k 0 w.1 = rowAt (run c f' true N t' m' (Sol.init m')).1.2.rates k 0 w.1 := by
  have r := run_asRates hr f N t
  have r' := run_asRates hr' f' N t'
  have key := control_history_tilted (t := t) (t' := t') hr.asRates hr'.asRates hx (asRates_given m) (asRates_given m') (asRates_anchored.2 han) hq hN
    (r.2.2.2 _ steady_blind hP) (r'.2.2.2 _ steady_blind hP') (by rw [r.2.1]; exact hs) (by rw [r'.2.1]; exact hs') (by rw [r.1]; exact hm)
    ⟨?_, h.initP, by rw [r.2.2.1]; exact h.wells⟩
  · rw [r.1, r'.1] at key
    exact key
  · show m'.bdict.map (plain m'.initR) = m.bdict.map (plain m.initR)
    rw [h.bdict]
    refine List.map_congr_left fun b hb => ?_
    unfold plain
    split_ifs with hp
    · rfl
    · rw [hr.factor hb hp, hr'.factor (h.bdict ▸ hb) hp]

/-! ### The hypotheses are met -/

/-- Two wells with target rates on the slope. -/
def exTiltBoth : Mdl ℚ := exMdl true 3 [4, 5, 7, 9] (some 8) [(0, "pressure", 10), (3, "rate", -1)]
  [(1, { q := some (-1), pwf := some (-90), r := some 1 }), (2, { q := some (-2), pwf := some (-90), r := some 1 })]

/-- The bottom-hole pressure reported for well 1 after one step. -/
def exTiltLast : ℚ := (((run (exC true 3 [4, 5, 7, 9]) 10 true 1 0 exTiltBoth (Sol.init exTiltBoth)).1.1.reported 1).getLastD none).getD 0

/-- Well 1 is held at this pressure. -/
def exTiltTraded : Mdl ℚ := exMdl true 3 [4, 5, 7, 9] (some 8) [(0, "pressure", 10), (3, "rate", -1)]
  [(1, { pwf := some exTiltLast, r := some 1 }), (2, { q := some (-2), pwf := some (-90), r := some 1 })]

/-- `C99_tilted_partial` applies to one step. -/
example : ∀ k, k ≤ 1 → ∀ id, id ∈ (exC true 3 [4, 5, 7, 9]).e.ids → rowAt (run (exC true 3 [4, 5, 7, 9]) 10 true 1 0 exTiltBoth (Sol.init exTiltBoth)).1.2.press k none id =
    rowAt (run (exC true 3 [4, 5, 7, 9]) 10 true 1 0 exTiltTraded (Sol.init exTiltTraded)).1.2.press k none id :=
  (C99_tilted_partial (c := exC true 3 [4, 5, 7, 9]) (m := exTiltBoth) (m' := exTiltTraded) (f := 10) (f' := 10) (N := 1) (t := 0) (t' := 0)
    (exMdl_ready (by decide +kernel)) (exMdl_ready (by decide +kernel)) cramer_exact (.inl (by decide +kernel)) (by decide +kernel) (.inl rfl)
    (runSteadyB_all (by decide +kernel)) (runSteadyB_all (by decide +kernel)) (isOk_unit (by decide +kernel)) (isOk_unit (by decide +kernel)) (met_of (by decide +kernel) (by decide +kernel))
    ⟨by decide +kernel, by decide +kernel, by decide +kernel⟩).2.2.1

end RF.Fdm
