import Verif.Fdm.PropsTiltForget
import Verif.Fdm.PropsTiltShare
/-!
# The order of set-up calls on inclined reservoirs with target rates (C81)

As in PropsTiltOrder.lean, for runs in which no well changes its constraint.
-/
set_option linter.unusedSectionVars false
namespace RF.Fdm
open RF RF.Dims RF.Spec Finset

variable {K : Type} [Field K] [LinearOrder K] [IsStrictOrderedRing K]
variable {c : Ctx K} {m m' : Mdl K}

lemma SameData.residue (h : SameData m m') (e : Env K) (T : ℕ → ℕ → K) (old x : ℕ → K) (i : ℕ) : residue e T m' old x i = residue e T m old x i := by
  unfold Fdm.residue
  rw [(h.bdict.map _).sum_eq, (h.wells.map (wIn e (x i) i)).sum_eq]

lemma SameData.headGap (h : SameData m m') (e : Env K) (i : ℕ) : headGap e m' i = headGap e m i :=
  headGap_congr ⟨fun ⟨w, hw, hc⟩ => ⟨w, h.wells.mem_iff.2 hw, hc⟩, fun ⟨w, hw, hc⟩ => ⟨w, h.wells.mem_iff.1 hw, hc⟩⟩ i

/-- Models with the same data have the same history on inclined reservoirs too. -/
theorem same_history_tilted (h : SameData m m') (hr : Ready c m) (hr' : Ready c m') (hx : Exact c.lin) (hg : RatesGiven m) (han : Anchored c.e m) {f f' N : ℕ} {t t' : K}
    (hP : RunAll c Steady f true N m { Sol.init m with nsteps := (Sol.init m).nsteps + N }) (hP' : RunAll c Steady f' true N m' { Sol.init m' with nsteps := (Sol.init m').nsteps + N })
    (hs : (run c f true N t m (Sol.init m)).2 = .ok ()) (hs' : (run c f' true N t' m' (Sol.init m')).2 = .ok ()) :
    (run c f true N t m (Sol.init m)).1.2.tstep = N ∧ (run c f' true N t' m' (Sol.init m')).1.2.tstep = N ∧
    (∀ k, k ≤ N → ∀ id, rowAt (run c f true N t m (Sol.init m)).1.2.press k none id = rowAt (run c f' true N t' m' (Sol.init m')).1.2.press k none id) ∧
    (∀ k, 0 < k → k ≤ N → ∀ id, rowAt (run c f true N t m (Sol.init m)).1.2.rates k 0 id = rowAt (run c f' true N t' m' (Sol.init m')).1.2.rates k 0 id) ∧
    ∀ w, w ∈ m.wells → (run c f true N t m (Sol.init m)).1.1.reported w.1 = (run c f' true N t' m' (Sol.init m')).1.1.reported w.1 := by
  have hg' : RatesGiven m' := fun b hb hk => by rw [← h.initR]; exact hg b (h.bdict.mem_iff.2 hb) hk
  obtain ⟨b, n, t1, i⟩ := run_tilted (el := t) hr hx hg hP hs
  obtain ⟨b', n', t1', i'⟩ := run_tilted (el := t') hr' hx hg' hP' hs'
  have dl := run_delivers (el := t) hr hP hs
  have dl' := run_delivers (el := t') hr' hP' hs'
  have fl := run_fluxes (el := t) hr hP hs
  have fl' := run_fluxes (el := t') hr' hP' hs'
  have hh := ((Hist.run hr.ctx.lower hr.ctx.wf hr.started.mdl N t .start hP).steady hr).1
  have hh' := ((Hist.run hr'.ctx.lower hr'.ctx.wf hr'.started.mdl N t' .start hP').steady hr').1
  have iv := hr.inv hh
  have iv' := hr'.inv hh'
  have fc := hh.faces hr
  have rp := hh.reports hr
  have rp' := hh'.reports hr'
  generalize (run c f true N t m (Sol.init m)).1 = R at *
  generalize (run c f' true N t' m' (Sol.init m')).1 = R' at *
  have key : ∀ k, k ≤ N → ∀ j, j < c.e.n → R.2.inner c.e k j = R'.2.inner c.e k j := by
    intro k
    induction k with
    | zero =>
      intro _ j _
      unfold Sol.inner
      rw [i, i', h.initP]
    | succ k ih =>
      intro hk j hj
      have ih := ih (by omega)
      have e : ∀ i, i < c.e.n → Fdm.residue c.e (c.e.trans true) m (R.2.inner c.e k) (R.2.inner c.e (k + 1)) i = Fdm.residue c.e (c.e.trans true) m (R'.2.inner c.e k) (R'.2.inner c.e (k + 1)) i := fun i hi => by
        rw [eq_neg_of_add_eq_zero_left (b k (by omega) i hi), ← h.residue, eq_neg_of_add_eq_zero_left (b' k (by omega) i hi), h.headGap]
      have u1 := residue_le hr (decays_const c true m 0) han k e (fun i hi => by rw [ih i hi, add_zero]) j hj
      have u2 := residue_le hr (decays_const c true m 0) han k (fun i hi => (e i hi).symm) (fun i hi => by rw [ih i hi, add_zero]) j hj
      rw [add_zero] at u1 u2
      exact le_antisymm u1 u2
  have press : ∀ k, k ≤ N → ∀ id, rowAt R.2.press k none id = rowAt R'.2.press k none id := fun k hk id => by
    rcases Nat.eq_zero_or_pos k with rfl | h0
    · rw [i, i', h.initP]
    by_cases hid : id ∈ c.e.ids
    · have h1 := n k h0 (by omega) _ (idx_lt c.e hid)
      have h2 := n' k h0 (by omega) _ (idx_lt c.e hid)
      rw [at_idx c.e hid] at h1 h2
      rw [h1, h2, key k hk _ (idx_lt c.e hid)]
    · rw [iv.prow k (by omega) id hid, iv'.prow k (by omega) id hid, h.initP]
  have rates : ∀ k, 0 < k → k ≤ N → ∀ id, rowAt R.2.rates k 0 id = rowAt R'.2.rates k 0 id := fun k h0 hk id => by
    by_cases hw : id ∈ m.wells.map (·.1)
    · obtain ⟨w, hw1, rfl⟩ := List.mem_map.1 hw
      rw [dl k h0 (by omega) w hw1, dl' k h0 (by omega) w (h.wells.mem_iff.1 hw1), key k hk _ (idx_lt c.e (hr.started.mdl.wmem w hw1))]
    by_cases hb : id ∈ m.bUpdate
    · obtain ⟨j, T, hF⟩ := fc (by omega) id hb
      obtain ⟨v, hv⟩ := upd_pressure hr.started.mdl hb
      have hv := mem_of_dictGet hv
      rw [fl k h0 (by omega) id v j T hv hF, fl' k h0 (by omega) id v j T (h.bdict.mem_iff.1 hv) hF, press k hk]
    · rw [iv.row k (by omega) id hb hw, iv'.row k (by omega) id (fun H => hb (h.upd.mem_iff.2 H)) (fun H => hw ((h.wells.map _).mem_iff.2 H)), h.initR]
  refine ⟨t1, t1', press, rates, fun w hw => ?_⟩
  rw [rp w hw, rp' w (h.wells.mem_iff.1 hw), h.reported, t1, t1']
  congr 1
  refine List.map_congr_left fun k hk => ?_
  have hk := List.mem_range.1 hk
  rw [press (k + 1) (by omega), rates (k + 1) (by omega) (by omega)]

/-- **C81, inclined reservoirs, vectorised, all wells.** Two scripts with the same set-up calls in another order, on a grid with cells at any depths. If the first goes through and leaves a model that is ready to run, then
so does the second, and two runs of the same length in which no well changes its constraint record the same pressures and rates for all cells, boundary cells included, at all steps, and report the same bottom-hole
pressures for every well. Missing: wells that reach their limits. -/
theorem C81_tilted_partial {l l' : List (SetCall K)} {pi : Option K} (h : setUp c.lower c.e pi l = .ok m) (hl : SameCalls l l') (hr : Ready c m) (hx : Exact c.lin) (han : Anchored c.e m) :
    ∃ m', setUp c.lower c.e pi l' = .ok m' ∧ Ready c m' ∧ ∀ (f f' N : ℕ) (t t' : K),
      RunAll c Steady f true N m { Sol.init m with nsteps := (Sol.init m).nsteps + N } → RunAll c Steady f' true N m' { Sol.init m' with nsteps := (Sol.init m').nsteps + N } →
      (run c f true N t m (Sol.init m)).2 = .ok () → (run c f' true N t' m' (Sol.init m')).2 = .ok () →
      (run c f true N t m (Sol.init m)).1.2.tstep = N ∧ (run c f' true N t' m' (Sol.init m')).1.2.tstep = N ∧
      (∀ k, k ≤ N → ∀ id, rowAt (run c f true N t m (Sol.init m)).1.2.press k none id = rowAt (run c f' true N t' m' (Sol.init m')).1.2.press k none id) ∧
      (∀ k, 0 < k → k ≤ N → ∀ id, rowAt (run c f true N t m (Sol.init m)).1.2.rates k 0 id = rowAt (run c f' true N t' m' (Sol.init m')).1.2.rates k 0 id) ∧
      ∀ w, w ∈ m.wells → (run c f true N t m (Sol.init m)).1.1.reported w.1 = (run c f' true N t' m' (Sol.init m')).1.1.reported w.1 := by
  obtain ⟨m', h1, h2⟩ := C81_setup c.lower hr.ctx.wf h hl
  have hr' := h2.ready hr (steps_setup l' (.init pi) h1)
  refine ⟨m', h1, hr', fun f f' N t t' hP hP' hs hs' => ?_⟩
  have r := run_asRates hr f N t
  have r' := run_asRates hr' f' N t'
  have key := same_history_tilted (t := t) (t' := t') h2.asRates hr.asRates hr'.asRates hx (asRates_given m) (asRates_anchored.2 han) (r.2.2.2 _ steady_blind hP)
    (r'.2.2.2 _ steady_blind hP') (by rw [r.2.1]; exact hs) (by rw [r'.2.1]; exact hs')
  rw [r.1, r'.1, r.2.2.1, r'.2.2.1] at key
  exact key

/-! ### The hypotheses are met -/

/-- Two wells on the slope, one with a target rate and one held at its pressure. -/
def exTiltScript : List (SetCall ℚ) :=
  [.bounds [(0, "pressure", 10), (3, "rate", -1)] (by decide), .well 1 { pwf := some 3, r := some 1 }, .well 2 { q := some (-2), r := some 1 }, .well 2 { pwf := some (-90) }]

/-- The same calls in another order. -/
def exTiltScript' : List (SetCall ℚ) :=
  [.well 2 { q := some (-2), r := some 1 }, .bounds [(3, "rate", -1), (0, "pressure", 10)] (by decide), .well 2 { pwf := some (-90) }, .well 1 { pwf := some 3, r := some 1 }]

lemma exTilt_ok : isOk (setUp (exC true 3 [4, 5, 7, 9]).lower (exC true 3 [4, 5, 7, 9]).e (some 8) exTiltScript) = true := by decide +kernel
lemma exTilt_ok' : isOk (setUp (exC true 3 [4, 5, 7, 9]).lower (exC true 3 [4, 5, 7, 9]).e (some 8) exTiltScript') = true := by decide +kernel

lemma exTilt_ready : Ready (exC true 3 [4, 5, 7, 9]) (getOk _ exTilt_ok) := by
  refine ⟨exC_ok _ _ _, steps_setup _ (.init _) (getOk_eq _ exTilt_ok), ?_, ?_, ?_⟩
  · intro x G hx hG
    have : ∀ x, x ∈ (getOk _ exTilt_ok).wells → 0 < x.2.G.getD 0 := by decide +kernel
    have := this x hx
    rw [hG] at this; exact this
  · intro x hx
    have : ∀ x, x ∈ (getOk _ exTilt_ok).wells → x.2.con ≠ none := by decide +kernel
    exact this x hx
  · intro x hx
    have : ∀ x, x ∈ (getOk _ exTilt_ok).bdict → (x.2.1 ∈ ["pressure", "press", "p"] ↔ x.2.1 = "pressure") := by decide +kernel
    exact this x hx

/-- The wells are listed in another order, and there is a target rate. -/
example : (getOk _ exTilt_ok).wells.map (fun w => (w.1, w.2.con)) = [(1, some .pwf), (2, some .q)] ∧ (getOk _ exTilt_ok').wells.map (·.1) = [2, 1] := by decide +kernel

/-- `C81_tilted_partial` applies to two steps of the two scripts. -/
example : ∃ m', setUp (exC true 3 [4, 5, 7, 9]).lower (exC true 3 [4, 5, 7, 9]).e (some 8) exTiltScript' = .ok m' ∧
    ∀ k, k ≤ 2 → ∀ id, rowAt (run (exC true 3 [4, 5, 7, 9]) 10 true 2 0 (getOk _ exTilt_ok) (Sol.init (getOk _ exTilt_ok))).1.2.press k none id =
      rowAt (run (exC true 3 [4, 5, 7, 9]) 10 true 2 0 m' (Sol.init m')).1.2.press k none id := by
  obtain ⟨m', h1, h2, h3⟩ := C81_tilted_partial (getOk_eq _ exTilt_ok) (sameCalls_of (l := exTiltScript) (l' := exTiltScript') (by decide +kernel)) exTilt_ready cramer_exact (.inl (by decide +kernel))
  have : m' = getOk _ exTilt_ok' := Except.ok.inj (h1.symm.trans (getOk_eq _ exTilt_ok'))
  subst this
  obtain ⟨-, -, h4, -, -⟩ := h3 10 10 2 0 0 (runSteadyB_all (by decide +kernel)) (runSteadyB_all (by decide +kernel)) (isOk_unit (by decide +kernel)) (isOk_unit (by decide +kernel))
  exact ⟨_, h1, h4⟩

end RF.Fdm
