import Verif.Fdm.PropsStrict
import Verif.Fdm.PropsTrend
/-!
# C101: what one place gains, the others lose

Raise a rate or a pressure at one place: every place that keeps its pressure gets less than before (or gives more), from the first step on, and no other well gets more. The place whose pressure was raised most does not get less.
-/
set_option linter.unusedSectionVars false
namespace RF.Fdm
open RF RF.Dims RF.Spec Finset

variable {K : Type} [Field K] [LinearOrder K] [IsStrictOrderedRing K]

section
variable {c : Ctx K} {m n : Mdl K}

lemma face_inner (hr : Ready c m) {b id : ℕ} {x : String × K} {T : K} (hb : (b, x) ∈ m.bdict) (hF : c.e.Face b id T) : id ∈ c.e.ids := by
  rcases hr.ctx.wf.face b (hr.started.mdl.bmem _ hb) with H | ⟨id', T', H1, -, H2⟩
  · rw [show c.e.transC b false = .ok [(id, T)] from hF] at H; cases H
  · have := (show c.e.transC b false = .ok [(id, T)] from hF).symm.trans H2
    cases this
    exact H1

lemma face_nonneg (hr : Ready c m) {b id : ℕ} {x : String × K} {T : K} (hb : (b, x) ∈ m.bdict) (hF : c.e.Face b id T) : 0 ≤ T := by
  rcases hr.ctx.wf.face b (hr.started.mdl.bmem _ hb) with H | ⟨id', T', -, H1, H2⟩
  · rw [show c.e.transC b false = .ok [(id, T)] from hF] at H; cases H
  · have := (show c.e.transC b false = .ok [(id, T)] from hF).symm.trans H2
    cases this
    exact H1

/-- The recorded rate of a well: what it delivers at the pressure of its cell. -/
lemma run_best (hr : Ready c m) (hx : Exact c.lin) {vect : Bool} (hf : vect = true → c.e.Flat) {f N : ℕ} {t : K} (hP : RunAll c Calm f vect N m { Sol.init m with nsteps := (Sol.init m).nsteps + N })
    (hs : (run c f vect N t m (Sol.init m)).2 = .ok ()) : (run c f vect N t m (Sol.init m)).1.2.tstep = N ∧
    ∀ k, 0 < k → k ≤ N → ∀ w, w ∈ m.wells → ∀ p, rowAt (run c f vect N t m (Sol.init m)).1.2.press k none w.1 = some p →
      rowAt (run c f vect N t m (Sol.init m)).1.2.rates k 0 w.1 = bestRate c.e w.2 p := by
  have key : ∀ m' : Mdl K, Ready c m' → m'.wells = m.wells → ∀ s : Sol K, s.tstep = N → Limited c vect m' s → Numbers c s → ∀ k, 0 < k → k ≤ N → ∀ w, w ∈ m.wells → ∀ p,
      rowAt s.press k none w.1 = some p → rowAt s.rates k 0 w.1 = bestRate c.e w.2 p := fun m' hr' he s hN hb hn k h0 hk w hw p hp => by
    have hid := hr.started.mdl.wmem w hw
    have h1 := hb.rates k h0 (by omega) w (he ▸ hw)
    have h2 := hn k h0 (by omega) _ (idx_lt c.e hid)
    rw [at_idx c.e hid, hp] at h2
    rw [h1, ← Option.some.inj h2]
    have := wOut_best hr hw p (c.e.ids.idxOf w.1)
    rw [at_idx c.e hid, if_pos rfl] at this
    exact this
  cases vect
  · obtain ⟨b, nu, t1, -⟩ := run_limited (el := t) hr hx (fun h => by cases h) hf hP hs
    exact ⟨t1, key m hr rfl _ t1 b nu⟩
  · have r := run_asRates hr f N t
    obtain ⟨b, nu, t1, -⟩ := run_limited (el := t) hr.asRates hx (fun _ => asRates_given m) hf (r.2.2.2 _ calm_blind hP) (by rw [r.2.1]; exact hs)
    rw [r.1] at b nu t1
    exact ⟨t1, key m.asRates hr.asRates rfl _ t1 b nu⟩

/-- **C101 (the others), partial.** Two runs of the same length on the same grid, the second with conditions, well rates, well pressures and initial pressures that are nowhere lower and with at least one of
them really higher. At every step: a well with the same settings in both has no higher rate in the second run, and a lower one if it is held at its pressure (rates into the reservoir are positive); less flows
in over every conducting boundary face with the same given pressure in both. Partial as C100. -/
theorem C101_others_partial (h : AtMost m n) (hr : Ready c m) (hr' : Ready c n) (hx : Exact c.lin) {vect : Bool} (hv : vect = true → c.e.Flat) (han : Anchored c.e m)
    (hinit : c.e.comp = true → ∀ id, id ∈ c.e.ids → ∃ p q, m.initP id = some p ∧ n.initP id = some q ∧ p ≤ q)
    {f f' N : ℕ} {t t' : K} (hP : RunAll c Calm f vect N m { Sol.init m with nsteps := (Sol.init m).nsteps + N })
    (hP' : RunAll c Calm f' vect N n { Sol.init n with nsteps := (Sol.init n).nsteps + N })
    (hs : (run c f vect N t m (Sol.init m)).2 = .ok ()) (hs' : (run c f' vect N t' n (Sol.init n)).2 = .ok ())
    (hR : Raise c.lower c.e vect m n (run c f vect N t m (Sol.init m)).1.2) :
    (∀ k, 0 < k → k ≤ N → ∀ w, w ∈ m.wells → w ∈ n.wells →
      rowAt (run c f' vect N t' n (Sol.init n)).1.2.rates k 0 w.1 ≤ rowAt (run c f vect N t m (Sol.init m)).1.2.rates k 0 w.1 ∧
      (w.2.con = some .pwf → rowAt (run c f' vect N t' n (Sol.init n)).1.2.rates k 0 w.1 < rowAt (run c f vect N t m (Sol.init m)).1.2.rates k 0 w.1)) ∧
    ∀ k, 0 < k → k ≤ N → ∀ b v id T, (b, "pressure", v) ∈ m.bdict → (b, "pressure", v) ∈ n.bdict → c.e.Face b id T → 0 < T →
      rowAt (run c f' vect N t' n (Sol.init n)).1.2.rates k 0 b < rowAt (run c f vect N t m (Sol.init m)).1.2.rates k 0 b := by
  have st := C100_strict_partial h hr hr' hx hv han hinit hP hP' hs hs' hR
  obtain ⟨t1, b⟩ := run_best (t := t) hr hx hv hP hs
  obtain ⟨t1', b'⟩ := run_best (t := t') hr' hx hv hP' hs'
  have fl := run_fluxes (el := t) hr hP hs
  have fl' := run_fluxes (el := t') hr' hP' hs'
  generalize (run c f vect N t m (Sol.init m)).1 = R at *
  generalize (run c f' vect N t' n (Sol.init n)).1 = R' at *
  refine ⟨fun k h0 hk w hw hw' => ?_, fun k h0 hk x v id T hb hb' hF hT => ?_⟩
  · obtain ⟨p, q, h1, h2, h3⟩ := st k h0 hk _ (hr.started.mdl.wmem w hw)
    rw [b k h0 hk w hw p h1, b' k h0 hk w hw' q h2]
    refine ⟨best_anti hr.ctx.wf.B hr.ctx.wf.mu (hr.started.mdl.well w hw) h3.le, fun hc => ?_⟩
    unfold bestRate
    rw [hr.setup.target w hw hc]
    exact mul_lt_mul_of_pos_left (by linarith) (windex_pos hr.ctx.wf.B hr.ctx.wf.mu (hr.started.mdl.well w hw))
  · obtain ⟨p, q, h1, h2, h3⟩ := st k h0 hk id (face_inner hr hb hF)
    rw [fl k h0 (by omega) x v id T hb hF, fl' k h0 (by omega) x v id T hb' hF, h1, h2, Option.getD_some, Option.getD_some]
    exact mul_lt_mul_of_pos_left (by linarith) (by linarith)

/-- **C101 (the place itself), partial.** Two runs of the same length on the same grid, the second with boundary pressures, well pressures and initial pressures that are higher by at most `δ`, none of them lower,
and the same rates. At every step, no less flows in over a boundary face whose given pressure is higher by `δ`, and through a well without target rate whose pressure is higher by `δ`. Partial as C68. -/
theorem C101_own_partial {δ : K} (h : AtMost m n) (hw : Within δ m n) (hr : Ready c m) (hr' : Ready c n) (hx : Exact c.lin) {vect : Bool} (hv : vect = true → c.e.Flat) (han : Anchored c.e m) (han' : Anchored c.e n)
    (hinit : c.e.comp = true → ∀ id, id ∈ c.e.ids → ∃ p q, m.initP id = some p ∧ n.initP id = some q ∧ p ≤ q ∧ q ≤ p + δ)
    {f f' N : ℕ} {t t' : K} (hP : RunAll c Calm f vect N m { Sol.init m with nsteps := (Sol.init m).nsteps + N })
    (hP' : RunAll c Calm f' vect N n { Sol.init n with nsteps := (Sol.init n).nsteps + N })
    (hs : (run c f vect N t m (Sol.init m)).2 = .ok ()) (hs' : (run c f' vect N t' n (Sol.init n)).2 = .ok ()) :
    (∀ k, 0 < k → k ≤ N → ∀ id w w' p, (id, w) ∈ m.wells → (id, w') ∈ n.wells → w.qsp = none → w.pwfsp = some p → w'.pwfsp = some (p + δ) →
      rowAt (run c f vect N t m (Sol.init m)).1.2.rates k 0 id ≤ rowAt (run c f' vect N t' n (Sol.init n)).1.2.rates k 0 id) ∧
    ∀ k, 0 < k → k ≤ N → ∀ b v id T, (b, "pressure", v) ∈ m.bdict → (b, "pressure", v + δ) ∈ n.bdict → c.e.Face b id T →
      rowAt (run c f vect N t m (Sol.init m)).1.2.rates k 0 b ≤ rowAt (run c f' vect N t' n (Sol.init n)).1.2.rates k 0 b := by
  have cl := (C68_run_partial (el := t) (el' := t') hr hr' hx hw hv han han' N (fun hc id hid => by
    obtain ⟨p, q, h1, h2, h3, h4⟩ := hinit hc id hid
    exact ⟨p, q, h1, h2, abs_le.2 ⟨by linarith, by linarith⟩⟩) hP hP' hs hs').2
  obtain ⟨t1, b⟩ := run_best (t := t) hr hx hv hP hs
  obtain ⟨t1', b'⟩ := run_best (t := t') hr' hx hv hP' hs'
  have fl := run_fluxes (el := t) hr hP hs
  have fl' := run_fluxes (el := t') hr' hP' hs'
  generalize (run c f vect N t m (Sol.init m)).1 = R at *
  generalize (run c f' vect N t' n (Sol.init n)).1 = R' at *
  refine ⟨fun k h0 hk id w w' p0 hw hw' hq hp hp' => ?_, fun k h0 hk x v id T hb hb' hF => ?_⟩
  · obtain ⟨p, q, h1, h2, h3⟩ := cl k (by omega) (.inr h0) _ (hr.started.mdl.wmem _ hw)
    obtain ⟨v', hv', H⟩ := (forall2_mem h.well).2 _ hw
    have : v' = (id, w') := eq_of_key hr'.started.mdl.wkeys hv' hw' H.1
    subst this
    have hq' : w'.qsp = none := by
      have := H.2.2.1.1
      dsimp only at this
      rw [hq] at this
      simpa using this
    rw [b k h0 hk _ hw p h1, b' k h0 hk _ hw' q h2]
    have hg : windex c.e w' = windex c.e w := by unfold windex; rw [show w'.G = w.G from H.2.1]
    unfold bestRate
    dsimp only
    rw [hq, hq', hg, hp, hp']
    exact mul_le_mul_of_nonneg_left (by simp only [Option.getD_some]; linarith [(abs_le.1 h3).1]) (windex_pos hr.ctx.wf.B hr.ctx.wf.mu (hr.started.mdl.well _ hw)).le
  · obtain ⟨p, q, h1, h2, h3⟩ := cl k (by omega) (.inr h0) id (face_inner hr hb hF)
    rw [fl k h0 (by omega) x v id T hb hF, fl' k h0 (by omega) x _ id T hb' hF, h1, h2, Option.getD_some, Option.getD_some]
    exact mul_le_mul_of_nonneg_left (by linarith [(abs_le.1 h3).1]) (by linarith [face_nonneg hr hb hF])

end

/-! ### examples -/

/-- A given pressure of 10 or 12 on the left, a well held at a pressure, and a well with a target and a limit. -/
def exShare (a : Bool) : List (SetCall ℚ) := [.bounds [(0, "pressure", if a then 12 else 10), (3, "pressure", 9)] (by simp), .well 1 { q := some (-30), pwf := some 2, r := some 1 }, .well 2 { pwf := some 4, r := some 1 }]

lemma exShare_ok (comp a : Bool) : isOk (setUp (exC comp 0 []).lower (exC comp 0 []).e (some 8) (exShare a)) = true := by cases comp <;> cases a <;> decide +kernel

lemma exShare_ready (comp a : Bool) : Ready (exC comp 0 []) (getOk _ (exShare_ok comp a)) :=
  ready_of_script (getOk_eq _ (exShare_ok comp a)) (by cases comp <;> cases a <;> decide +kernel) (by cases comp <;> cases a <;> decide +kernel)

lemma exShare_most (comp : Bool) : AtMost (getOk _ (exShare_ok comp false)) (getOk _ (exShare_ok comp true)) :=
  ⟨by cases comp <;> decide +kernel, by cases comp <;> decide +kernel⟩

lemma exShare_init (comp a : Bool) : ∀ id, id ∈ (exC comp 0 []).e.ids → (getOk _ (exShare_ok comp a)).initP id = some 8 :=
  all_of (p := fun id => (getOk _ (exShare_ok comp a)).initP id = some 8) (by cases comp <;> cases a <;> decide +kernel)

lemma exShare_anchored (comp a : Bool) : Anchored (exC comp 0 []).e (getOk _ (exShare_ok comp a)) :=
  .inr (.inl ⟨(3, "pressure", 9), 2, 1, by cases comp <;> cases a <;> decide +kernel, rfl, by unfold Env.Face; cases comp <;> decide +kernel, by norm_num⟩)

/-- `C101_others_partial` applies: less comes in on the right. -/
example (comp vect : Bool) : ∀ k, 0 < k → k ≤ 2 →
    rowAt (run (exC comp 0 []) 10 vect 2 0 (getOk _ (exShare_ok comp true)) (Sol.init (getOk _ (exShare_ok comp true)))).1.2.rates k 0 3 <
      rowAt (run (exC comp 0 []) 10 vect 2 0 (getOk _ (exShare_ok comp false)) (Sol.init (getOk _ (exShare_ok comp false)))).1.2.rates k 0 3 := fun k h0 hk =>
  (C101_others_partial (vect := vect) (exShare_most comp) (exShare_ready comp false) (exShare_ready comp true) cramer_exact (fun _ => ex_flat _) (exShare_anchored comp false)
    (fun _ id hid => ⟨8, 8, exShare_init comp false id hid, exShare_init comp true id hid, le_rfl⟩)
    (runCalmB_all (by cases comp <;> cases vect <;> decide +kernel)) (runCalmB_all (by cases comp <;> cases vect <;> decide +kernel)) (isOk_unit (by cases comp <;> cases vect <;> decide +kernel))
    (isOk_unit (by cases comp <;> cases vect <;> decide +kernel))
    (.press 0 10 12 1 1 (by cases comp <;> decide +kernel) (by cases comp <;> decide +kernel) (by norm_num) (by unfold Env.Face; cases comp <;> decide +kernel) (by norm_num))).2 k h0 hk 3 9 2 1
    (by cases comp <;> decide +kernel) (by cases comp <;> decide +kernel) (by unfold Env.Face; cases comp <;> decide +kernel) (by norm_num)

/-- `C101_own_partial` applies: no less comes in on the left. -/
example (comp vect : Bool) : ∀ k, 0 < k → k ≤ 2 →
    rowAt (run (exC comp 0 []) 10 vect 2 0 (getOk _ (exShare_ok comp false)) (Sol.init (getOk _ (exShare_ok comp false)))).1.2.rates k 0 0 ≤
      rowAt (run (exC comp 0 []) 10 vect 2 0 (getOk _ (exShare_ok comp true)) (Sol.init (getOk _ (exShare_ok comp true)))).1.2.rates k 0 0 := fun k h0 hk =>
  (C101_own_partial (δ := 2) (vect := vect) (exShare_most comp) ⟨by cases comp <;> decide +kernel, by cases comp <;> decide +kernel⟩ (exShare_ready comp false) (exShare_ready comp true) cramer_exact
    (fun _ => ex_flat _) (exShare_anchored comp false) (exShare_anchored comp true) (fun _ id hid => ⟨8, 8, exShare_init comp false id hid, exShare_init comp true id hid, le_rfl, by norm_num⟩)
    (runCalmB_all (by cases comp <;> cases vect <;> decide +kernel)) (runCalmB_all (by cases comp <;> cases vect <;> decide +kernel)) (isOk_unit (by cases comp <;> cases vect <;> decide +kernel))
    (isOk_unit (by cases comp <;> cases vect <;> decide +kernel))).2 k h0 hk 0 10 1 1 (by cases comp <;> decide +kernel) (by cases comp <;> decide +kernel) (by unfold Env.Face; cases comp <;> decide +kernel)

/-- A well with a target of −2 or −3 and a limit of 2 in a closed reservoir. -/
def exTarget (a : Bool) : List (SetCall ℚ) := [.well 1 { q := some (if a then -2 else -3), pwf := some 2, r := some 1 }, .well 2 { q := some (-1), pwf := some (-99), r := some 1 }]

lemma exTarget_ok (a : Bool) : isOk (setUp (exC true 0 []).lower (exC true 0 []).e (some 8) (exTarget a)) = true := by cases a <;> decide +kernel

/-- **C101 fails** for the target of a well with a limit: a well that is told to produce less in the beginning produces more in the third step, when it is at its limit in both runs. -/
theorem C101_target_fails (vect : Bool) : ∃ (c : Ctx ℚ) (m n : Mdl ℚ) (w w' : Well ℚ) (q q' : ℚ), Ready c m ∧ Ready c n ∧ Exact c.lin ∧ c.e.Flat ∧ AtMost m n ∧ (∀ id, id ∈ c.e.ids → m.initP id = n.initP id) ∧
    (1, w) ∈ m.wells ∧ (1, w') ∈ n.wells ∧ w.qsp = some q ∧ w'.qsp = some q' ∧ q < q' ∧ (run c 10 vect 3 0 m (Sol.init m)).2 = .ok () ∧ (run c 10 vect 3 0 n (Sol.init n)).2 = .ok () ∧
    RunAll c Calm 10 vect 3 m { Sol.init m with nsteps := (Sol.init m).nsteps + 3 } ∧ RunAll c Calm 10 vect 3 n { Sol.init n with nsteps := (Sol.init n).nsteps + 3 } ∧
    rowAt (run c 10 vect 3 0 n (Sol.init n)).1.2.rates 3 0 1 < rowAt (run c 10 vect 3 0 m (Sol.init m)).1.2.rates 3 0 1 :=
  ⟨exC true 0 [], getOk _ (exTarget_ok false), getOk _ (exTarget_ok true), ((getOk _ (exTarget_ok false)).wells.getD 0 (0, {})).2, ((getOk _ (exTarget_ok true)).wells.getD 0 (0, {})).2, -3, -2,
    ready_of_script (getOk_eq _ (exTarget_ok false)) (by decide +kernel) (by decide +kernel), ready_of_script (getOk_eq _ (exTarget_ok true)) (by decide +kernel) (by decide +kernel), cramer_exact, ex_flat _,
    ⟨by decide +kernel, by decide +kernel⟩, by decide +kernel, by decide +kernel, by decide +kernel, by decide +kernel, by decide +kernel, by norm_num, isOk_unit (by cases vect <;> decide +kernel),
    isOk_unit (by cases vect <;> decide +kernel), runCalmB_all (by cases vect <;> decide +kernel), runCalmB_all (by cases vect <;> decide +kernel), by cases vect <;> decide +kernel⟩

end RF.Fdm
