import Verif.Fdm.PropsTilt
import Verif.Fdm.PropsStrict
import Verif.Fdm.PropsTrend
/-!
# Comparison, stability and trends on inclined reservoirs with target rates (C39, C68, C86)

As in PropsTilt.lean: while no well changes its constraint, what the vectorised assembler enters for gravity drops out of differences. On inclined reservoirs the properties hold for such runs, with all kinds of
wells; they fail when a well reaches its limit (PropsSlopes.lean).
-/
set_option linter.unusedSectionVars false
namespace RF.Fdm
open RF RF.Dims RF.Spec Finset

variable {K : Type} [Field K] [LinearOrder K] [IsStrictOrderedRing K]
variable {c : Ctx K} {m n m0 : Mdl K}

lemma inflow_add {n : ℕ} {T : ℕ → ℕ → K} {D : ℕ → K} (p q : ℕ → K) (i : ℕ) : Net.inflow n T D (fun j => p j + q j) i = Net.inflow n T D p i + Net.inflow n T D q i := by
  unfold Net.inflow
  rw [sum_congr rfl fun j _ => show T i j * (p j + q j - (p i + q i)) = T i j * (p j - p i) + T i j * (q j - q i) by ring, sum_add_distrib]
  ring

/-- Which constraint a well starts under is settled by whether it has a target rate. -/
lemma con_eq (hr : Ready c m) (hr' : Ready c n) {w w' : ℕ × Well K} (hw : w ∈ m.wells) (hw' : w' ∈ n.wells) (h : w'.2.qsp.isSome = w.2.qsp.isSome) : w'.2.con = w.2.con := by
  have key : ∀ {m : Mdl K}, Ready c m → ∀ {w : ℕ × Well K}, w ∈ m.wells → w.2.con = if w.2.qsp.isSome then some .q else some .pwf := fun {m} hr {w} hw => by
    have h1 := hr.cfg w hw
    have h2 := hr.setup.target w hw
    have h3 := (hr.started.mdl.well w hw).free
    rcases hc : w.2.con with _ | _ | _
    · exact absurd hc h1
    · rcases hq : w.2.qsp with _ | q
      · exact absurd hc (h3 hq).2
      · rfl
    · rw [h2 hc]; rfl
  rw [key hr hw, key hr' hw', h]

lemma AtMost.shape (h : AtMost m n) (hr : Ready c m) (hr' : Ready c n) : Shape m n :=
  ⟨h.bd.imp fun _ _ h => ⟨h.1, h.2.1⟩, (forall2_and h.well).imp fun _ _ ⟨h, hw, hw'⟩ => ⟨h.1, h.2.1, con_eq hr hr' hw hw' h.2.2.1.1⟩⟩

lemma Within.shape {δ : K} (h : Within δ m n) (hr : Ready c m) (hr' : Ready c n) : Shape m n :=
  ⟨h.bd.imp fun _ _ h => ⟨h.1, h.2.1⟩, (forall2_and h.well).imp fun _ _ ⟨h, hw, hw'⟩ => ⟨h.1, h.2.1, con_eq hr hr' hw hw' (by rw [h.2.2.1])⟩⟩

lemma bPush_least {e : Env K} (he : e.WF) {δ : K} (hm : MdlOK e m) (hm' : MdlOK e n) (h : AtMostBy δ m n) (i : ℕ) {b : ℕ × String × K} (hb : b ∈ m.bdict) :
    0 ≤ bPush e (bValue n b.1 - bValue m b.1) i b + bLeak e i b * δ := by
  obtain ⟨b', hb', k1, k2, k3, k4⟩ := (forall2_mem h.bd).2 b hb
  have v' : bValue n b.1 = b'.2.2 := by unfold bValue; rw [← k1, dictGet_of_mem hm'.bkeys hb']; rfl
  have v : bValue m b.1 = b.2.2 := by unfold bValue; rw [dictGet_of_mem hm.bkeys hb]; rfl
  rw [v, v']
  unfold bPush bLeak faceLeak
  rcases he.face b.1 (hm.bmem b hb) with hF | ⟨id, T, hid, hT, hF⟩
  · simp [hF]
  · simp only [Env.Face] at hF
    simp only [hF]
    by_cases ha : id = e.at i
    · by_cases hp : b.2.1 = "pressure"
      · simp only [ha, hp, if_true]
        have := mul_nonneg (show (0 : K) ≤ 2 * T by linarith) (show 0 ≤ b'.2.2 - b.2.2 + δ by linarith [k3 hp])
        linarith
      · simp only [ha, hp, if_true, if_false]
        linarith [k4 hp]
    · simp [ha]

lemma wPush_least {e : Env K} (he : e.WF) {δ : K} (hm : MdlOK e m) (hm' : MdlOK e n) (h : AtMostBy δ m n) (i : ℕ) {w : ℕ × Well K} (hw : w ∈ m.wells) :
    0 ≤ wPush e (wRate n w.1 - wRate m w.1) (wPwf n w.1 - wPwf m w.1) i w + wLeak e i w * δ := by
  obtain ⟨w', hw', k1, k2, k3, k4⟩ := (forall2_mem h.well).2 w hw
  have v' : wRate n w.1 = w'.2.qsp.getD 0 ∧ wPwf n w.1 = w'.2.pwfsp.getD 0 := by unfold wRate wPwf; rw [← k1, dictGet_of_mem hm'.wkeys hw']; exact ⟨rfl, rfl⟩
  have v : wRate m w.1 = w.2.qsp.getD 0 ∧ wPwf m w.1 = w.2.pwfsp.getD 0 := by unfold wRate wPwf; rw [dictGet_of_mem hm.wkeys hw]; exact ⟨rfl, rfl⟩
  rw [v.1, v.2, v'.1, v'.2]
  unfold wPush wLeak
  by_cases hid : w.1 = e.at i
  · rcases hc : w.2.con with _ | _ | _
    · simp
    · simp [hid, k3.2]
    · simp only [hid, if_true, and_self]
      have := mul_nonneg (windex_pos he.B he.mu (hm.well w hw)).le (show 0 ≤ w'.2.pwfsp.getD 0 - w.2.pwfsp.getD 0 + δ by linarith [k4])
      linarith
  · simp [hid]

/-- Given pressures that are lower by at most `δ` and rates that are not lower take at most as much out of a cell as lowering its pressure by `δ` brings in. -/
lemma push_least {e : Env K} (he : e.WF) {δ : K} (hm : MdlOK e m) (hm' : MdlOK e n) (h : AtMostBy δ m n) (i : ℕ) : 0 ≤ push e m n i + outLeak e m i * δ := by
  have g1 := sum_nonneg' fun b hb => bPush_least he hm hm' h i (b := b) hb
  have g2 := sum_nonneg' fun w hw => wPush_least he hm hm' h i (w := w) hw
  rw [sum_shift] at g1 g2
  unfold push outLeak
  linarith

/-- The comparison from which C39, C68 and C69 follow. -/
lemma run_decay_tilted {δ : K} {β : ℕ → ℕ → K} {f f' N : ℕ} {el el' : K} (hr : Ready c m) (hr' : Ready c n) (hx : Exact c.lin) (hsh : Shape m n) (hle : AtMostBy δ m n) (hd : Decays c true m δ 0 β) (hg : RatesGiven m) (hg' : RatesGiven n) (han : Anchored c.e m)
    (hinit : c.e.comp = true → ∀ i, i < c.e.n → ∃ p q, m.initP (c.e.at i) = some p ∧ n.initP (c.e.at i) = some q ∧ p ≤ q + β 0 i)
    (hP : RunAll c Steady f true N m { Sol.init m with nsteps := (Sol.init m).nsteps + N }) (hP' : RunAll c Steady f' true N n { Sol.init n with nsteps := (Sol.init n).nsteps + N })
    (hs : (run c f true N el m (Sol.init m)).2 = .ok ()) (hs' : (run c f' true N el' n (Sol.init n)).2 = .ok ()) :
    (run c f true N el m (Sol.init m)).1.2.tstep = N ∧ (run c f' true N el' n (Sol.init n)).1.2.tstep = N ∧ ∀ k, k ≤ N → (c.e.comp = true ∨ 0 < k) → ∀ id, id ∈ c.e.ids →
      ∃ p q, rowAt (run c f true N el m (Sol.init m)).1.2.press k none id = some p ∧ rowAt (run c f' true N el' n (Sol.init n)).1.2.press k none id = some q ∧ p ≤ q + β k (c.e.ids.idxOf id) := by
  obtain ⟨b, nn, t, i0⟩ := run_tilted hr hx hg hP hs
  obtain ⟨b', nn', t', i0'⟩ := run_tilted hr' hx hg' hP' hs'
  generalize (run c f true N el m (Sol.init m)).1.2 = s at *
  generalize (run c f' true N el' n (Sol.init n)).1.2 = s' at *
  have he := hr.ctx.wf
  have hm := hr.started.mdl
  have hm' := hr'.started.mdl
  have hT := hr.ctx.grid.network true
  have key : ∀ k, k ≤ N → (c.e.comp = true ∨ 0 < k) → ∀ j, j < c.e.n → s.inner c.e k j ≤ s'.inner c.e k j + β k j := by
    intro k
    induction k with
    | zero =>
      intro _ h j hj
      rcases h with h | h
      · obtain ⟨p, q, k1, k2, k3⟩ := hinit h _ hj
        unfold Sol.inner
        rw [i0, i0', k1, k2]; exact k3
      · omega
    | succ k ih =>
      intro hk _ j hj
      have pos := Net.nonneg_of_inflow_nonpos (anchored_leaky he hT hm han) (p := fun j => s'.inner c.e (k + 1) j - s.inner c.e (k + 1) j + β (k + 1) j) (fun j hj => by
        rw [inflow_add]
        have d := residue_diff (T := c.e.trans true) he hm hm' hsh (s.inner c.e k) (s'.inner c.e k) (s.inner c.e (k + 1)) (s'.inner c.e (k + 1)) j
        rw [eq_neg_of_add_eq_zero_left (b k (by omega) j hj), eq_neg_of_add_eq_zero_left (b' k (by omega) j hj), hsh.headGap, sub_self] at d
        have l := push_least he hm hm' hle j
        have e : leak c.e m j = c.e.rhs (c.e.at j) + outLeak c.e m j := by unfold leak outLeak; ring
        have r : 0 ≤ c.e.rhs (c.e.at j) * (s'.inner c.e k j - s.inner c.e k j + β k j) := by
          rcases hcm : c.e.comp
          · rw [he.rhsI hcm, zero_mul]
          · exact mul_nonneg (rhs_nonneg he (at_mem c.e hj)) (by linarith [ih (by omega) (.inl hcm) j hj])
        have f := (hd k j hj).2
        have g : Net.inflow c.e.n (c.e.trans true) (leak c.e m) (β (k + 1)) j = ∑ i ∈ range c.e.n, c.e.trans true j i * (β (k + 1) i - β (k + 1) j) - leak c.e m j * β (k + 1) j := rfl
        rw [g, e]
        nlinarith) j hj
      linarith
  refine ⟨t, t', fun k hk hcp id hid => ?_⟩
  have hj := idx_lt c.e hid
  have num : ∀ (u : Sol K) (m' : Mdl K), Numbers c u → u.tstep = N → (∀ id, rowAt u.press 0 none id = m'.initP id) → (c.e.comp = true → ∃ p, m'.initP id = some p) →
      rowAt u.press k none id = some (u.inner c.e k (c.e.ids.idxOf id)) := fun u m' h1 h2 h3 h4 => by
    by_cases h0 : 0 < k
    · have := h1 k h0 (by omega) _ hj
      rw [at_idx c.e hid] at this
      exact this
    · have e0 : k = 0 := by omega
      obtain ⟨p, hp⟩ := h4 (hcp.resolve_right h0)
      unfold Sol.inner
      rw [e0, at_idx c.e hid, h3, hp]
      rfl
  refine ⟨_, _, num s m nn t i0 fun h => ?_, num s' n nn' t' i0' fun h => ?_, key k hk hcp _ hj⟩
  · obtain ⟨p, q, k1, -, -⟩ := hinit h _ hj
    rw [at_idx c.e hid] at k1
    exact ⟨p, k1⟩
  · obtain ⟨p, q, -, k2, -⟩ := hinit h _ hj
    rw [at_idx c.e hid] at k2
    exact ⟨q, k2⟩

/-- Its special case for constant differences. -/
lemma run_most_tilted {δ : K} {f f' N : ℕ} {el el' : K} (hr : Ready c m) (hr' : Ready c n) (hx : Exact c.lin) (hsh : Shape m n) (hle : AtMostBy δ m n) (hg : RatesGiven m) (hg' : RatesGiven n) (han : Anchored c.e m)
    (hinit : c.e.comp = true → ∀ id, id ∈ c.e.ids → ∃ p q, m.initP id = some p ∧ n.initP id = some q ∧ p ≤ q + δ)
    (hP : RunAll c Steady f true N m { Sol.init m with nsteps := (Sol.init m).nsteps + N }) (hP' : RunAll c Steady f' true N n { Sol.init n with nsteps := (Sol.init n).nsteps + N })
    (hs : (run c f true N el m (Sol.init m)).2 = .ok ()) (hs' : (run c f' true N el' n (Sol.init n)).2 = .ok ()) :
    (run c f true N el m (Sol.init m)).1.2.tstep = N ∧ (run c f' true N el' n (Sol.init n)).1.2.tstep = N ∧ ∀ k, k ≤ N → (c.e.comp = true ∨ 0 < k) → ∀ id, id ∈ c.e.ids →
      ∃ p q, rowAt (run c f true N el m (Sol.init m)).1.2.press k none id = some p ∧ rowAt (run c f' true N el' n (Sol.init n)).1.2.press k none id = some q ∧ p ≤ q + δ := by
  exact run_decay_tilted hr hr' hx hsh hle (decays_const c true m δ) hg hg' han (fun h i hi => hinit h _ (at_mem c.e hi)) hP hP' hs hs'

/-! ### C39 -/

lemma AtMost.by (h : AtMost m n) : AtMostBy 0 m n :=
  ⟨h.bd.imp fun _ _ h => ⟨h.1, h.2.1, fun _ => by rw [add_zero]; exact h.2.2, fun _ => h.2.2⟩, h.well.imp fun _ _ h => ⟨h.1, h.2.1, h.2.2.1, by rw [add_zero]; exact h.2.2.2⟩⟩

/-- **C39, inclined reservoirs, vectorised, all wells.** Two runs of the same length on the same grid, whatever the depths of its cells: raise boundary pressures, rates and gradients, target rates, bottom-hole pressures
and initial pressures, in any combination; as long as no well changes its constraint in either run, all pressures of all steps are at least as high. Missing: wells that reach their limit, for which it is false (C39_vectorised_fails). -/
theorem C39_tilted_partial {f f' N : ℕ} {el el' : K} (hr : Ready c m) (hr' : Ready c n) (hx : Exact c.lin) (hle : AtMost m n) (han : Anchored c.e m)
    (hinit : c.e.comp = true → ∀ id, id ∈ c.e.ids → ∃ p q, m.initP id = some p ∧ n.initP id = some q ∧ p ≤ q)
    (hP : RunAll c Steady f true N m { Sol.init m with nsteps := (Sol.init m).nsteps + N }) (hP' : RunAll c Steady f' true N n { Sol.init n with nsteps := (Sol.init n).nsteps + N })
    (hs : (run c f true N el m (Sol.init m)).2 = .ok ()) (hs' : (run c f' true N el' n (Sol.init n)).2 = .ok ()) :
    Below c (run c f true N el m (Sol.init m)).1.2 (run c f' true N el' n (Sol.init n)).1.2 := by
  have hsh := hle.shape hr hr'
  have r := run_asRates hr f N el
  have r' := run_asRates hr' f' N el'
  have key := run_most_tilted (f := f) (f' := f') (el := el) (el' := el') hr.asRates hr'.asRates hx hsh.asRates (hle.asRates hr hr').by (asRates_given m) (asRates_given n) (asRates_anchored.2 han)
    (fun h id hid => by obtain ⟨p, q, k1, k2, k3⟩ := hinit h id hid; exact ⟨p, q, k1, k2, by rw [add_zero]; exact k3⟩)
    (r.2.2.2 _ steady_blind hP) (r'.2.2.2 _ steady_blind hP') (by rw [r.2.1]; exact hs) (by rw [r'.2.1]; exact hs')
  rw [r.1, r'.1] at key
  obtain ⟨t, t', key⟩ := key
  refine ⟨by rw [t, t'], fun k hk hcp id hid => ?_⟩
  obtain ⟨p, q, k1, k2, k3⟩ := key k (by omega) hcp id hid
  exact ⟨p, q, k1, k2, by rw [add_zero] at k3; exact k3⟩

/-! ### C68 -/

lemma Within.asRates {δ : K} (h : Within δ m n) (hr : Ready c m) (hr' : Ready c n) : Within δ m.asRates n.asRates := by
  refine ⟨List.forall₂_map_left_iff.2 (List.forall₂_map_right_iff.2 ((forall2_and h.bd).imp fun b b' ⟨⟨h1, h2, h3, h4⟩, hb, hb'⟩ => ?_)), h.well⟩
  by_cases hp : b.2.1 = "pressure"
  · have e1 : plain m.initR b = b := by unfold plain; rw [if_pos hp]
    have e2 : plain n.initR b' = b' := by unfold plain; rw [if_pos (by rw [h2]; exact hp)]
    rw [e1, e2]
    exact ⟨h1, h2, h3, h4⟩
  · have e1 : plain m.initR b = (b.1, "rate", m.initR b.1) := by unfold plain; rw [if_neg hp]
    have e2 : plain n.initR b' = (b'.1, "rate", n.initR b'.1) := by unfold plain; rw [if_neg (by rw [h2]; exact hp)]
    rw [e1, e2]
    refine ⟨h1, rfl, fun hh => absurd hh (by simp), fun _ => ?_⟩
    show n.initR b'.1 = m.initR b.1
    rw [hr.factor hb hp, hr'.factor hb' (by rw [h2]; exact hp), h1, h2, h4 hp]

/-- **C68, inclined reservoirs, vectorised, all wells.** Given pressures and initial pressures that differ by at most `δ`, all else being equal, lead to pressures that differ by at most `δ`, at every step, whatever the
depths of the cells, as long as no well changes its constraint in either run. Missing: wells that reach their limit, for which it is false (C68_vectorised_fails). -/
theorem C68_tilted_partial {δ : K} {f f' N : ℕ} {el el' : K} (hr : Ready c m) (hr' : Ready c n) (hx : Exact c.lin) (hd : Within δ m n) (han : Anchored c.e m) (han' : Anchored c.e n)
    (hinit : c.e.comp = true → ∀ id, id ∈ c.e.ids → ∃ p q, m.initP id = some p ∧ n.initP id = some q ∧ |p - q| ≤ δ)
    (hP : RunAll c Steady f true N m { Sol.init m with nsteps := (Sol.init m).nsteps + N }) (hP' : RunAll c Steady f' true N n { Sol.init n with nsteps := (Sol.init n).nsteps + N })
    (hs : (run c f true N el m (Sol.init m)).2 = .ok ()) (hs' : (run c f' true N el' n (Sol.init n)).2 = .ok ()) :
    Close (fun _ => δ) c (run c f true N el m (Sol.init m)).1.2 (run c f' true N el' n (Sol.init n)).1.2 := by
  have hsh := hd.shape hr hr'
  have r := run_asRates hr f N el
  have r' := run_asRates hr' f' N el'
  have hsh' : Shape n m := ⟨(hsh.bd.imp fun _ _ h => (⟨h.1.symm, h.2.symm⟩ : _ ∧ _)).flip, (hsh.well.imp fun _ _ h => (⟨h.1.symm, h.2.1.symm, h.2.2.symm⟩ : _ ∧ _ ∧ _)).flip⟩
  have k1 := run_most_tilted (f := f) (f' := f') (el := el) (el' := el') hr.asRates hr'.asRates hx hsh.asRates (hd.asRates hr hr').most (asRates_given m) (asRates_given n) (asRates_anchored.2 han)
    (fun h id hid => by obtain ⟨p, q, k1, k2, k3⟩ := hinit h id hid; exact ⟨p, q, k1, k2, by linarith [(abs_le.1 k3).2]⟩)
    (r.2.2.2 _ steady_blind hP) (r'.2.2.2 _ steady_blind hP') (by rw [r.2.1]; exact hs) (by rw [r'.2.1]; exact hs')
  have k2 := run_most_tilted (f := f') (f' := f) (el := el') (el' := el) hr'.asRates hr.asRates hx hsh'.asRates (hd.symm.asRates hr' hr).most (asRates_given n) (asRates_given m) (asRates_anchored.2 han')
    (fun h id hid => by obtain ⟨p, q, k1, k2, k3⟩ := hinit h id hid; exact ⟨q, p, k2, k1, by linarith [(abs_le.1 k3).1]⟩)
    (r'.2.2.2 _ steady_blind hP') (r.2.2.2 _ steady_blind hP) (by rw [r'.2.1]; exact hs') (by rw [r.2.1]; exact hs)
  rw [r.1, r'.1] at k1 k2
  obtain ⟨t, t', k1⟩ := k1
  obtain ⟨-, -, k2⟩ := k2
  refine ⟨by rw [t, t'], fun k hk hcp id hid => ?_⟩
  obtain ⟨p, q, a1, a2, a3⟩ := k1 k (by omega) hcp id hid
  obtain ⟨q', p', b1, b2, b3⟩ := k2 k (by omega) hcp id hid
  rw [a2] at b1
  rw [a1] at b2
  obtain rfl := Option.some.inj b1
  obtain rfl := Option.some.inj b2
  exact ⟨p, q, a1, a2, abs_le.2 ⟨by linarith, by linarith⟩⟩

/-! ### C86 -/

/-- **C86, inclined reservoirs, vectorised, all wells.** If all pressures rise (fall) in one step they do so in every later one, whatever the depths of the cells, as long as no well changes its constraint.
Missing: wells that reach their limit, for which it is false (C86_vectorised_fails). -/
theorem C86_tilted_partial (hr : Ready c m) (hx : Exact c.lin) (han : Anchored c.e m) {f N : ℕ} {el : K} (hP : RunAll c Steady f true N m { Sol.init m with nsteps := (Sol.init m).nsteps + N })
    (hs : (run c f true N el m (Sol.init m)).2 = .ok ()) (up : Bool) (j : ℕ) (hj : Trend up c (run c f true N el m (Sol.init m)).1.2 j) :
    ∀ l, j ≤ l → l < N → Trend up c (run c f true N el m (Sol.init m)).1.2 l := by
  have r := run_asRates hr f N el
  obtain ⟨b, nn, t, i0⟩ := run_tilted hr.asRates (f := f) (N := N) (el := el) hx (asRates_given m) (r.2.2.2 _ steady_blind hP) (by rw [r.2.1]; exact hs)
  rw [r.1] at b nn t i0
  generalize (run c f true N el m (Sol.init m)).1.2 = s at *
  have he := hr.ctx.wf
  have hm := hr.asRates.started.mdl
  have hT := hr.ctx.grid.network true
  have refl : Shape m.asRates m.asRates := ⟨List.forall₂_same.2 fun _ _ => ⟨rfl, rfl⟩, List.forall₂_same.2 fun _ _ => ⟨rfl, rfl, rfl⟩⟩
  have le : ∀ (x y : ℕ → K) (o o' : ℕ → K), (∀ i, i < c.e.n → residue c.e (c.e.trans true) m.asRates o x i = residue c.e (c.e.trans true) m.asRates o' y i) → (∀ i, i < c.e.n → o i ≤ o' i) → ∀ i, i < c.e.n → x i ≤ y i := fun x y o o' h1 h2 i hi => by
    have := Net.nonneg_of_inflow_nonpos (anchored_leaky he hT hm (asRates_anchored.2 han)) (p := fun j => y j - x j) (fun i hi => by
      have d := residue_diff (T := c.e.trans true) he hm hm refl o o' x y i
      rw [h1 i hi, sub_self] at d
      have l : push c.e m.asRates m.asRates i = 0 := by
        unfold push bPush wPush
        simp only [sub_self, mul_zero, ite_self]
        rw [List.sum_eq_zero, List.sum_eq_zero, add_zero]
        · intro x hx
          obtain ⟨w, -, rfl⟩ := List.mem_map.1 hx
          rcases w.2.con with _ | _ | _ <;> simp
        · intro x hx
          obtain ⟨b, -, rfl⟩ := List.mem_map.1 hx
          rcases c.e.transC b.1 false with _ | _ | ⟨_, _ | _⟩ <;> simp
      have rr := mul_nonneg (rhs_nonneg he (at_mem c.e hi)) (sub_nonneg.2 (h2 i hi))
      linarith) i hi
    linarith
  have num : ∀ k, 0 < k → k ≤ N → ∀ id, id ∈ c.e.ids → s.at k id = some (s.inner c.e k (c.e.ids.idxOf id)) := fun k h0 hk id hid => by
    have := nn k h0 (by omega) _ (idx_lt c.e hid)
    rw [at_idx c.e hid] at this
    exact this
  intro l hl
  induction l, hl using Nat.le_induction with
  | base => exact fun _ => hj
  | succ l hl ih =>
    intro hlN id hid
    have ih := ih (by omega)
    refine ⟨_, _, num (l + 1) (by omega) (by omega) id hid, num (l + 1 + 1) (by omega) (by omega) id hid, ?_⟩
    have e : ∀ i, i < c.e.n → residue c.e (c.e.trans true) m.asRates (s.inner c.e l) (s.inner c.e (l + 1)) i = residue c.e (c.e.trans true) m.asRates (s.inner c.e (l + 1)) (s.inner c.e (l + 1 + 1)) i := fun i hi => by
      rw [eq_neg_of_add_eq_zero_left (b l (by omega) i hi), eq_neg_of_add_eq_zero_left (b (l + 1) (by omega) i hi)]
    have o : ∀ i, i < c.e.n → Moves up (s.inner c.e l i) (s.inner c.e (l + 1) i) := fun i hi => by
      obtain ⟨p, q, k1, k2, k3⟩ := ih _ (at_mem c.e hi)
      unfold Sol.inner
      unfold Sol.at at k1 k2
      rw [k1, k2]; exact k3
    cases up
    · exact le _ _ _ _ (fun i hi => (e i hi).symm) (fun i hi => o i hi) _ (idx_lt c.e hid)
    · exact le _ _ _ _ e (fun i hi => o i hi) _ (idx_lt c.e hid)

/-! ### The hypotheses are met -/

/-- On the slope, with the pressure on the left, the target rate and the initial pressures raised: C39 applies. -/
example : ∃ s t : Sol ℚ, s.tstep = 2 ∧ Below (exC true 3 [4, 5, 7, 9]) s t :=
  ⟨_, _, by decide +kernel, C39_tilted_partial (f := 10) (f' := 10) (N := 2) (el := 0) (el' := 0) (m := exSteep 8 10 (-2) (-90)) (n := exSteep 9 12 (-1) (-90)) (exMdl_ready (by decide +kernel))
    (exMdl_ready (by decide +kernel)) cramer_exact ⟨by decide +kernel, by decide +kernel⟩ (.inl (by decide +kernel))
    (fun _ id hid => ⟨8, 9, all_of (p := fun id => (exSteep 8 10 (-2) (-90)).initP id = some 8) (by decide +kernel) id hid,
      all_of (p := fun id => (exSteep 9 12 (-1) (-90)).initP id = some 9) (by decide +kernel) id hid, by norm_num⟩)
    (runSteadyB_all (by decide +kernel)) (runSteadyB_all (by decide +kernel)) (isOk_unit (by decide +kernel)) (isOk_unit (by decide +kernel))⟩

/-- On the slope, with the pressure on the left changed by 2 and the initial pressures by 1: C68 applies. -/
example : ∃ s t : Sol ℚ, s.tstep = 2 ∧ Close (fun _ => 2) (exC true 3 [4, 5, 7, 9]) s t :=
  ⟨_, _, by decide +kernel, C68_tilted_partial (f := 10) (f' := 10) (N := 2) (el := 0) (el' := 0) (m := exSteep 8 10 (-2) (-90)) (n := exSteep 9 12 (-2) (-90)) (exMdl_ready (by decide +kernel))
    (exMdl_ready (by decide +kernel)) cramer_exact ⟨by decide +kernel, by decide +kernel⟩ (.inl (by decide +kernel)) (.inl (by decide +kernel))
    (fun _ id hid => ⟨8, 9, all_of (p := fun id => (exSteep 8 10 (-2) (-90)).initP id = some 8) (by decide +kernel) id hid,
      all_of (p := fun id => (exSteep 9 12 (-2) (-90)).initP id = some 9) (by decide +kernel) id hid, by norm_num⟩)
    (runSteadyB_all (by decide +kernel)) (runSteadyB_all (by decide +kernel)) (isOk_unit (by decide +kernel)) (isOk_unit (by decide +kernel))⟩

/-- On the slope, with the well at rate -5 and initial pressures of 16, all pressures fall in the first step: C86 applies. -/
example : ∃ s : Sol ℚ, s.tstep = 3 ∧ ∀ l, l < 3 → Trend false (exC true 3 [4, 5, 7, 9]) s l :=
  ⟨_, by decide +kernel, fun l hl => C86_tilted_partial (f := 10) (N := 3) (el := 0) (m := exSteep 16 10 (-5) (-90)) (exMdl_ready (by decide +kernel)) cramer_exact (.inl (by decide +kernel))
    (runSteadyB_all (by decide +kernel)) (isOk_unit (by decide +kernel)) false 0 (trend_of (by decide +kernel)) l (Nat.zero_le _) hl⟩

end RF.Fdm
